import Verif.Commands.LineLogic
import Verif.Commands.LineTable
/-!
# The classes of the command maps do what the table of first lines says

Written by `scripts/gen_lines.py`.
-/
namespace Ks.Cmd

set_option linter.unusedVariables false

def obeys_firstbootLines_0_object (_ : Nat) : Ns := [(c!"firstboot", .none)]

theorem obeys_firstbootLines_0_base (n : Str) : Command.FirstBase (FC3_Firstboot.cls) n [] obeys_firstbootLines_0_object := by
  intro b b' hb hb' line l; kernel_rfl

theorem obeys_firstbootLines_0_start : Command.FirstStart (FC3_Firstboot.cls) obeys_firstbootLines_0_object (firstbootLines.start.getD 0 ([], [])).2 := fun _ => .inr ⟨fun _ => rfl, by kernel_rfl⟩

theorem obeys_firstbootLines_0_lines (n : Str) : ∀ i ∈ [0, 1, 2, 3, 4], Command.FirstLine (FC3_Firstboot.cls) n [] obeys_firstbootLines_0_object (firstbootLines.lines.getD i noLine) :=
  (all_cons (by intro b b' hb hb' x hx line l; kernel_rfl)
    (all_cons (by intro b b' hb hb' x hx line l; kernel_rfl)
    (all_cons (by intro b b' hb hb' x hx line l; kernel_rfl)
    (all_cons (by intro b b' hb hb' x hx line l; kernel_rfl)
    (all_cons (by intro b b' hb hb' x hx line l; kernel_rfl)
    (List.forall_mem_nil _))))))

theorem obeys_firstbootLines_0 : ∀ v, [Version.RHEL3, Version.FC3, Version.RHEL4, Version.FC4, Version.FC5, Version.FC6, Version.RHEL5, Version.F7, Version.F8, Version.F9, Version.F10, Version.F11, Version.F12, Version.F13, Version.RHEL6, Version.F14, Version.F15, Version.F16, Version.F17, Version.F18, Version.F19, Version.F20, Version.F21, Version.RHEL7, Version.F22, Version.F23, Version.F24, Version.F25, Version.F26, Version.F27, Version.F28, Version.RHEL8, Version.F29, Version.F30, Version.F31, Version.F32, Version.F33, Version.F34].contains v = true → Command.Obeys (FC3_Firstboot.cls) firstbootLines v :=
  obeys_of obeys_firstbootLines_0_object [0] [0, 1, 2, 3, 4] (obeys_firstbootLines_0_base _) (all_cons obeys_firstbootLines_0_start (List.forall_mem_nil _)) (obeys_firstbootLines_0_lines _) (by decide +kernel)

theorem obeys_firstbootLines : firstbootLines.Obeyed := by
  unfold CommandLines.Obeyed commandMaps
  exact (all_cons (fun _ c h => by cases h; exact obeys_firstbootLines_0 _ rfl)
    (all_cons (fun _ c h => by cases h; exact obeys_firstbootLines_0 _ rfl)
    (all_cons (fun _ c h => by cases h; exact obeys_firstbootLines_0 _ rfl)
    (all_cons (fun _ c h => by cases h; exact obeys_firstbootLines_0 _ rfl)
    (all_cons (fun _ c h => by cases h; exact obeys_firstbootLines_0 _ rfl)
    (all_cons (fun _ c h => by cases h; exact obeys_firstbootLines_0 _ rfl)
    (all_cons (fun _ c h => by cases h; exact obeys_firstbootLines_0 _ rfl)
    (all_cons (fun _ c h => by cases h; exact obeys_firstbootLines_0 _ rfl)
    (all_cons (fun _ c h => by cases h; exact obeys_firstbootLines_0 _ rfl)
    (all_cons (fun _ c h => by cases h; exact obeys_firstbootLines_0 _ rfl)
    (all_cons (fun _ c h => by cases h; exact obeys_firstbootLines_0 _ rfl)
    (all_cons (fun _ c h => by cases h; exact obeys_firstbootLines_0 _ rfl)
    (all_cons (fun _ c h => by cases h; exact obeys_firstbootLines_0 _ rfl)
    (all_cons (fun _ c h => by cases h; exact obeys_firstbootLines_0 _ rfl)
    (all_cons (fun _ c h => by cases h; exact obeys_firstbootLines_0 _ rfl)
    (all_cons (fun _ c h => by cases h; exact obeys_firstbootLines_0 _ rfl)
    (all_cons (fun _ c h => by cases h; exact obeys_firstbootLines_0 _ rfl)
    (all_cons (fun _ c h => by cases h; exact obeys_firstbootLines_0 _ rfl)
    (all_cons (fun _ c h => by cases h; exact obeys_firstbootLines_0 _ rfl)
    (all_cons (fun _ c h => by cases h; exact obeys_firstbootLines_0 _ rfl)
    (all_cons (fun _ c h => by cases h; exact obeys_firstbootLines_0 _ rfl)
    (all_cons (fun _ c h => by cases h; exact obeys_firstbootLines_0 _ rfl)
    (all_cons (fun _ c h => by cases h; exact obeys_firstbootLines_0 _ rfl)
    (all_cons (fun _ c h => by cases h; exact obeys_firstbootLines_0 _ rfl)
    (all_cons (fun _ c h => by cases h; exact obeys_firstbootLines_0 _ rfl)
    (all_cons (fun _ c h => by cases h; exact obeys_firstbootLines_0 _ rfl)
    (all_cons (fun _ c h => by cases h; exact obeys_firstbootLines_0 _ rfl)
    (all_cons (fun _ c h => by cases h; exact obeys_firstbootLines_0 _ rfl)
    (all_cons (fun _ c h => by cases h; exact obeys_firstbootLines_0 _ rfl)
    (all_cons (fun _ c h => by cases h; exact obeys_firstbootLines_0 _ rfl)
    (all_cons (fun _ c h => by cases h; exact obeys_firstbootLines_0 _ rfl)
    (all_cons (fun _ c h => by cases h; exact obeys_firstbootLines_0 _ rfl)
    (all_cons (fun _ c h => by cases h; exact obeys_firstbootLines_0 _ rfl)
    (all_cons (fun _ c h => by cases h; exact obeys_firstbootLines_0 _ rfl)
    (all_cons (fun _ c h => by cases h; exact obeys_firstbootLines_0 _ rfl)
    (all_cons (fun _ c h => by cases h; exact obeys_firstbootLines_0 _ rfl)
    (all_cons (fun _ c h => by cases h; exact obeys_firstbootLines_0 _ rfl)
    (all_cons (fun _ c h => by cases h; exact obeys_firstbootLines_0 _ rfl) (List.forall_mem_nil _)))))))))))))))))))))))))))))))))))))))

def obeys_networkLines_0_object (l : Nat) : Ns := [(c!"lineno", .int l), (c!"bootProto", .str c!"dhcp"), (c!"dhcpclass", .str c!""), (c!"device", .str c!""), (c!"essid", .str c!""), (c!"ethtool", .str c!""), (c!"gateway", .str c!""), (c!"hostname", .str c!""), (c!"ip", .str c!""), (c!"mtu", .str c!""), (c!"nameserver", .str c!""), (c!"netmask", .str c!""), (c!"nodns", .bool false), (c!"onboot", .bool true), (c!"wepkey", .str c!""), (c!"notksdevice", .bool false), (c!"noipv4", .bool false), (c!"noipv6", .bool false), (c!"ipv6", .str c!"")]

theorem obeys_networkLines_0_base (n : Str) : Command.FirstBase (F9_Network.cls F8_NetworkData.cls) n [] obeys_networkLines_0_object := by
  intro b b' hb hb' line l; kernel_rfl

theorem obeys_networkLines_0_start : Command.FirstStart (F9_Network.cls F8_NetworkData.cls) obeys_networkLines_0_object (networkLines.start.getD 0 ([], [])).2 := fun _ => .inl ⟨fun _ => rfl, (all_cons (by kernel_rfl) (all_cons (by kernel_rfl) (List.forall_mem_nil _)))⟩

theorem obeys_networkLines_0_lines (n : Str) : ∀ i ∈ [3, 28, 30, 32, 34, 36, 38, 40, 52], Command.FirstLine (F9_Network.cls F8_NetworkData.cls) n [] obeys_networkLines_0_object (networkLines.lines.getD i noLine) :=
  (all_cons (by intro b b' hb hb' x hx line l; kernel_rfl)
    (all_cons (by intro b b' hb hb' x hx line l; kernel_rfl)
    (all_cons (by intro b b' hb hb' x hx line l; kernel_rfl)
    (all_cons (by intro b b' hb hb' x hx line l; kernel_rfl)
    (all_cons (by intro b b' hb hb' x hx line l; (cases x with | nil => exact absurd rfl hx | cons a x => kernel_rfl))
    (all_cons (by intro b b' hb hb' x hx line l; (cases x with | nil => exact absurd rfl hx | cons a x => kernel_rfl))
    (all_cons (by intro b b' hb hb' x hx line l; (cases x with | nil => exact absurd rfl hx | cons a x => kernel_rfl))
    (all_cons (by intro b b' hb hb' x hx line l; (cases x with | nil => exact absurd rfl hx | cons a x => kernel_rfl))
    (all_cons (by intro b b' hb hb' x hx line l; (cases x with | nil => exact absurd rfl hx | cons a x => kernel_rfl))
    (List.forall_mem_nil _))))))))))

theorem obeys_networkLines_0 : ∀ v, [Version.F9, Version.F10, Version.F11, Version.F12, Version.F13, Version.F14, Version.F15].contains v = true → Command.Obeys (F9_Network.cls F8_NetworkData.cls) networkLines v :=
  obeys_of obeys_networkLines_0_object [0] [3, 28, 30, 32, 34, 36, 38, 40, 52] (obeys_networkLines_0_base _) (all_cons obeys_networkLines_0_start (List.forall_mem_nil _)) (obeys_networkLines_0_lines _) (by decide +kernel)

def obeys_networkLines_1_object (l : Nat) : Ns := [(c!"lineno", .int l), (c!"bootProto", .str c!"dhcp"), (c!"dhcpclass", .str c!""), (c!"device", .str c!""), (c!"essid", .str c!""), (c!"ethtool", .str c!""), (c!"gateway", .str c!""), (c!"hostname", .str c!""), (c!"ip", .str c!""), (c!"mtu", .str c!""), (c!"nameserver", .str c!""), (c!"netmask", .str c!""), (c!"nodns", .bool false), (c!"onboot", .bool true), (c!"wepkey", .str c!""), (c!"notksdevice", .bool false), (c!"noipv4", .bool false), (c!"noipv6", .bool false), (c!"ipv6", .str c!""), (c!"activate", .none), (c!"nodefroute", .bool false), (c!"wpakey", .str c!"")]

theorem obeys_networkLines_1_base (n : Str) : Command.FirstBase (F16_Network.cls F16_NetworkData.cls) n [] obeys_networkLines_1_object := by
  intro b b' hb hb' line l; kernel_rfl

theorem obeys_networkLines_1_start : Command.FirstStart (F16_Network.cls F16_NetworkData.cls) obeys_networkLines_1_object (networkLines.start.getD 0 ([], [])).2 := fun _ => .inl ⟨fun _ => rfl, (all_cons (by kernel_rfl) (all_cons (by kernel_rfl) (List.forall_mem_nil _)))⟩

theorem obeys_networkLines_1_lines (n : Str) : ∀ i ∈ [29, 31, 33, 35, 52], Command.FirstLine (F16_Network.cls F16_NetworkData.cls) n [] obeys_networkLines_1_object (networkLines.lines.getD i noLine) :=
  (all_cons (by intro b b' hb hb' x hx line l; kernel_rfl)
    (all_cons (by intro b b' hb hb' x hx line l; kernel_rfl)
    (all_cons (by intro b b' hb hb' x hx line l; kernel_rfl)
    (all_cons (by intro b b' hb hb' x hx line l; (cases x with | nil => exact absurd rfl hx | cons a x => kernel_rfl))
    (all_cons (by intro b b' hb hb' x hx line l; (cases x with | nil => exact absurd rfl hx | cons a x => kernel_rfl))
    (List.forall_mem_nil _))))))

theorem obeys_networkLines_1 : ∀ v, [Version.F16, Version.F17].contains v = true → Command.Obeys (F16_Network.cls F16_NetworkData.cls) networkLines v :=
  obeys_of obeys_networkLines_1_object [0] [29, 31, 33, 35, 52] (obeys_networkLines_1_base _) (all_cons obeys_networkLines_1_start (List.forall_mem_nil _)) (obeys_networkLines_1_lines _) (by decide +kernel)

def obeys_networkLines_2_object (l : Nat) : Ns := [(c!"lineno", .int l), (c!"bootProto", .str c!"dhcp"), (c!"dhcpclass", .str c!""), (c!"device", .str c!""), (c!"essid", .str c!""), (c!"ethtool", .str c!""), (c!"gateway", .str c!""), (c!"hostname", .str c!""), (c!"ip", .str c!""), (c!"mtu", .str c!""), (c!"nameserver", .str c!""), (c!"netmask", .str c!""), (c!"nodns", .bool false), (c!"onboot", .bool true), (c!"wepkey", .str c!""), (c!"notksdevice", .bool false), (c!"noipv4", .bool false), (c!"noipv6", .bool false), (c!"ipv6", .str c!""), (c!"activate", .none), (c!"nodefroute", .bool false), (c!"wpakey", .str c!"")]

theorem obeys_networkLines_2_base (n : Str) : Command.FirstBase (F18_Network.cls F16_NetworkData.cls) n [] obeys_networkLines_2_object := by
  intro b b' hb hb' line l; kernel_rfl

theorem obeys_networkLines_2_start : Command.FirstStart (F18_Network.cls F16_NetworkData.cls) obeys_networkLines_2_object (networkLines.start.getD 0 ([], [])).2 := fun _ => .inl ⟨fun _ => rfl, (all_cons (by kernel_rfl) (all_cons (by kernel_rfl) (List.forall_mem_nil _)))⟩

theorem obeys_networkLines_2_lines (n : Str) : ∀ i ∈ [36, 38, 40, 42, 52], Command.FirstLine (F18_Network.cls F16_NetworkData.cls) n [] obeys_networkLines_2_object (networkLines.lines.getD i noLine) :=
  (all_cons (by intro b b' hb hb' x hx line l; (cases x with | nil => exact absurd rfl hx | cons a x => kernel_rfl))
    (all_cons (by intro b b' hb hb' x hx line l; (cases x with | nil => exact absurd rfl hx | cons a x => kernel_rfl))
    (all_cons (by intro b b' hb hb' x hx line l; (cases x with | nil => exact absurd rfl hx | cons a x => kernel_rfl))
    (all_cons (by intro b b' hb hb' x hx line l; (cases x with | nil => exact absurd rfl hx | cons a x => kernel_rfl))
    (all_cons (by intro b b' hb hb' x hx line l; (cases x with | nil => exact absurd rfl hx | cons a x => kernel_rfl))
    (List.forall_mem_nil _))))))

theorem obeys_networkLines_2 : ∀ v, [Version.F18].contains v = true → Command.Obeys (F18_Network.cls F16_NetworkData.cls) networkLines v :=
  obeys_of obeys_networkLines_2_object [0] [36, 38, 40, 42, 52] (obeys_networkLines_2_base _) (all_cons obeys_networkLines_2_start (List.forall_mem_nil _)) (obeys_networkLines_2_lines _) (by decide +kernel)

def obeys_networkLines_3_object (l : Nat) : Ns := [(c!"lineno", .int l), (c!"bootProto", .str c!"dhcp"), (c!"dhcpclass", .str c!""), (c!"device", .str c!""), (c!"essid", .str c!""), (c!"ethtool", .str c!""), (c!"gateway", .str c!""), (c!"hostname", .str c!""), (c!"ip", .str c!""), (c!"mtu", .str c!""), (c!"nameserver", .str c!""), (c!"netmask", .str c!""), (c!"nodns", .bool false), (c!"onboot", .bool true), (c!"wepkey", .str c!""), (c!"notksdevice", .bool false), (c!"noipv4", .bool false), (c!"noipv6", .bool false), (c!"ipv6", .str c!""), (c!"activate", .none), (c!"nodefroute", .bool false), (c!"wpakey", .str c!""), (c!"bondslaves", .str c!""), (c!"bondopts", .str c!""), (c!"vlanid", .str c!""), (c!"ipv6gateway", .str c!"")]

theorem obeys_networkLines_3_base (n : Str) : Command.FirstBase (F19_Network.cls F19_NetworkData.cls) n [] obeys_networkLines_3_object := by
  intro b b' hb hb' line l; kernel_rfl

theorem obeys_networkLines_3_start : Command.FirstStart (F19_Network.cls F19_NetworkData.cls) obeys_networkLines_3_object (networkLines.start.getD 0 ([], [])).2 := fun _ => .inl ⟨fun _ => rfl, (all_cons (by kernel_rfl) (all_cons (by kernel_rfl) (List.forall_mem_nil _)))⟩

theorem obeys_networkLines_3_lines (n : Str) : ∀ i ∈ [37, 39, 41, 43, 44, 46, 52], Command.FirstLine (F19_Network.cls F19_NetworkData.cls) n [] obeys_networkLines_3_object (networkLines.lines.getD i noLine) :=
  (all_cons (by intro b b' hb hb' x hx line l; (cases x with | nil => exact absurd rfl hx | cons a x => kernel_rfl))
    (all_cons (by intro b b' hb hb' x hx line l; (cases x with | nil => exact absurd rfl hx | cons a x => kernel_rfl))
    (all_cons (by intro b b' hb hb' x hx line l; (cases x with | nil => exact absurd rfl hx | cons a x => kernel_rfl))
    (all_cons (by intro b b' hb hb' x hx line l; (cases x with | nil => exact absurd rfl hx | cons a x => kernel_rfl))
    (all_cons (by intro b b' hb hb' x hx line l; kernel_rfl)
    (all_cons (by intro b b' hb hb' x hx line l; (cases x with | nil => exact absurd rfl hx | cons a x => kernel_rfl))
    (all_cons (by intro b b' hb hb' x hx line l; (cases x with | nil => exact absurd rfl hx | cons a x => kernel_rfl))
    (List.forall_mem_nil _))))))))

theorem obeys_networkLines_3 : ∀ v, [Version.F19].contains v = true → Command.Obeys (F19_Network.cls F19_NetworkData.cls) networkLines v :=
  obeys_of obeys_networkLines_3_object [0] [37, 39, 41, 43, 44, 46, 52] (obeys_networkLines_3_base _) (all_cons obeys_networkLines_3_start (List.forall_mem_nil _)) (obeys_networkLines_3_lines _) (by decide +kernel)

def obeys_networkLines_4_object (l : Nat) : Ns := [(c!"lineno", .int l), (c!"bootProto", .str c!"dhcp"), (c!"dhcpclass", .str c!""), (c!"device", .str c!""), (c!"essid", .str c!""), (c!"ethtool", .str c!""), (c!"gateway", .str c!""), (c!"hostname", .str c!""), (c!"ip", .str c!""), (c!"mtu", .str c!""), (c!"nameserver", .str c!""), (c!"netmask", .str c!""), (c!"nodns", .bool false), (c!"onboot", .bool true), (c!"wepkey", .str c!""), (c!"notksdevice", .bool false), (c!"noipv4", .bool false), (c!"noipv6", .bool false), (c!"ipv6", .str c!""), (c!"activate", .none), (c!"nodefroute", .bool false), (c!"wpakey", .str c!""), (c!"bondslaves", .str c!""), (c!"bondopts", .str c!""), (c!"vlanid", .str c!""), (c!"ipv6gateway", .str c!""), (c!"teamslaves", .list []), (c!"teamconfig", .str c!"")]

theorem obeys_networkLines_4_base (n : Str) : Command.FirstBase (F20_Network.cls F20_NetworkData.cls) n [] obeys_networkLines_4_object := by
  intro b b' hb hb' line l; kernel_rfl

theorem obeys_networkLines_4_start : Command.FirstStart (F20_Network.cls F20_NetworkData.cls) obeys_networkLines_4_object (networkLines.start.getD 0 ([], [])).2 := fun _ => .inl ⟨fun _ => rfl, (all_cons (by kernel_rfl) (all_cons (by kernel_rfl) (List.forall_mem_nil _)))⟩

theorem obeys_networkLines_4_lines (n : Str) : ∀ i ∈ [45, 47, 48, 52], Command.FirstLine (F20_Network.cls F20_NetworkData.cls) n [] obeys_networkLines_4_object (networkLines.lines.getD i noLine) :=
  (all_cons (by intro b b' hb hb' x hx line l; kernel_rfl)
    (all_cons (by intro b b' hb hb' x hx line l; (cases x with | nil => exact absurd rfl hx | cons a x => kernel_rfl))
    (all_cons (by intro b b' hb hb' x hx line l; (cases x with | nil => exact absurd rfl hx | cons a x => kernel_rfl))
    (all_cons (by intro b b' hb hb' x hx line l; (cases x with | nil => exact absurd rfl hx | cons a x => kernel_rfl))
    (List.forall_mem_nil _)))))

theorem obeys_networkLines_4 : ∀ v, [Version.F20].contains v = true → Command.Obeys (F20_Network.cls F20_NetworkData.cls) networkLines v :=
  obeys_of obeys_networkLines_4_object [0] [45, 47, 48, 52] (obeys_networkLines_4_base _) (all_cons obeys_networkLines_4_start (List.forall_mem_nil _)) (obeys_networkLines_4_lines _) (by decide +kernel)

def obeys_networkLines_5_object (l : Nat) : Ns := [(c!"lineno", .int l), (c!"bootProto", .str c!"dhcp"), (c!"dhcpclass", .str c!""), (c!"device", .str c!""), (c!"essid", .str c!""), (c!"ethtool", .str c!""), (c!"gateway", .str c!""), (c!"hostname", .str c!""), (c!"ip", .str c!""), (c!"mtu", .str c!""), (c!"nameserver", .str c!""), (c!"netmask", .str c!""), (c!"nodns", .bool false), (c!"onboot", .bool true), (c!"wepkey", .str c!""), (c!"notksdevice", .bool false), (c!"noipv4", .bool false), (c!"noipv6", .bool false), (c!"ipv6", .str c!""), (c!"activate", .none), (c!"nodefroute", .bool false), (c!"wpakey", .str c!""), (c!"bondslaves", .str c!""), (c!"bondopts", .str c!""), (c!"vlanid", .str c!""), (c!"ipv6gateway", .str c!""), (c!"teamslaves", .list []), (c!"teamconfig", .str c!""), (c!"interfacename", .str c!"")]

theorem obeys_networkLines_5_base (n : Str) : Command.FirstBase (F21_Network.cls F21_NetworkData.cls) n [] obeys_networkLines_5_object := by
  intro b b' hb hb' line l; kernel_rfl

theorem obeys_networkLines_5_start : Command.FirstStart (F21_Network.cls F21_NetworkData.cls) obeys_networkLines_5_object (networkLines.start.getD 0 ([], [])).2 := fun _ => .inl ⟨fun _ => rfl, (all_cons (by kernel_rfl) (all_cons (by kernel_rfl) (List.forall_mem_nil _)))⟩

theorem obeys_networkLines_5_lines (n : Str) : ∀ i ∈ [49, 50, 52, 53, 55], Command.FirstLine (F21_Network.cls F21_NetworkData.cls) n [] obeys_networkLines_5_object (networkLines.lines.getD i noLine) :=
  (all_cons (by intro b b' hb hb' x hx line l; (cases x with | nil => exact absurd rfl hx | cons a x => kernel_rfl))
    (all_cons (by intro b b' hb hb' x hx line l; (cases x with | nil => exact absurd rfl hx | cons a x => kernel_rfl))
    (all_cons (by intro b b' hb hb' x hx line l; (cases x with | nil => exact absurd rfl hx | cons a x => kernel_rfl))
    (all_cons (by intro b b' hb hb' x hx line l; kernel_rfl)
    (all_cons (by intro b b' hb hb' x hx line l; kernel_rfl)
    (List.forall_mem_nil _))))))

theorem obeys_networkLines_5 : ∀ v, [Version.F21].contains v = true → Command.Obeys (F21_Network.cls F21_NetworkData.cls) networkLines v :=
  obeys_of obeys_networkLines_5_object [0] [49, 50, 52, 53, 55] (obeys_networkLines_5_base _) (all_cons obeys_networkLines_5_start (List.forall_mem_nil _)) (obeys_networkLines_5_lines _) (by decide +kernel)

def obeys_networkLines_6_object (l : Nat) : Ns := [(c!"lineno", .int l), (c!"bootProto", .str c!"dhcp"), (c!"dhcpclass", .str c!""), (c!"device", .str c!""), (c!"essid", .str c!""), (c!"ethtool", .str c!""), (c!"gateway", .str c!""), (c!"hostname", .str c!""), (c!"ip", .str c!""), (c!"mtu", .str c!""), (c!"nameserver", .str c!""), (c!"netmask", .str c!""), (c!"nodns", .bool false), (c!"onboot", .bool true), (c!"wepkey", .str c!""), (c!"notksdevice", .bool false), (c!"noipv4", .bool false), (c!"noipv6", .bool false), (c!"ipv6", .str c!""), (c!"activate", .none), (c!"nodefroute", .bool false), (c!"wpakey", .str c!""), (c!"bondslaves", .str c!""), (c!"bondopts", .str c!""), (c!"vlanid", .str c!""), (c!"ipv6gateway", .str c!""), (c!"teamslaves", .list []), (c!"teamconfig", .str c!""), (c!"interfacename", .str c!""), (c!"bridgeslaves", .str c!""), (c!"bridgeopts", .str c!"")]

theorem obeys_networkLines_6_base (n : Str) : Command.FirstBase (F22_Network.cls F22_NetworkData.cls) n [] obeys_networkLines_6_object := by
  intro b b' hb hb' line l; kernel_rfl

theorem obeys_networkLines_6_start : Command.FirstStart (F22_Network.cls F22_NetworkData.cls) obeys_networkLines_6_object (networkLines.start.getD 0 ([], [])).2 := fun _ => .inl ⟨fun _ => rfl, (all_cons (by kernel_rfl) (all_cons (by kernel_rfl) (List.forall_mem_nil _)))⟩

theorem obeys_networkLines_6_lines (n : Str) : ∀ i ∈ [52, 53, 55], Command.FirstLine (F22_Network.cls F22_NetworkData.cls) n [] obeys_networkLines_6_object (networkLines.lines.getD i noLine) :=
  (all_cons (by intro b b' hb hb' x hx line l; (cases x with | nil => exact absurd rfl hx | cons a x => kernel_rfl))
    (all_cons (by intro b b' hb hb' x hx line l; kernel_rfl)
    (all_cons (by intro b b' hb hb' x hx line l; kernel_rfl)
    (List.forall_mem_nil _))))

theorem obeys_networkLines_6 : ∀ v, [Version.F22, Version.F23].contains v = true → Command.Obeys (F22_Network.cls F22_NetworkData.cls) networkLines v :=
  obeys_of obeys_networkLines_6_object [0] [52, 53, 55] (obeys_networkLines_6_base _) (all_cons obeys_networkLines_6_start (List.forall_mem_nil _)) (obeys_networkLines_6_lines _) (by decide +kernel)

def obeys_networkLines_7_object (l : Nat) : Ns := [(c!"lineno", .int l), (c!"bootProto", .str c!"dhcp"), (c!"dhcpclass", .str c!""), (c!"device", .str c!""), (c!"essid", .str c!""), (c!"ethtool", .str c!""), (c!"gateway", .str c!""), (c!"hostname", .str c!""), (c!"ip", .str c!""), (c!"mtu", .str c!""), (c!"nameserver", .str c!""), (c!"netmask", .str c!""), (c!"nodns", .bool false), (c!"onboot", .bool true), (c!"wepkey", .str c!""), (c!"notksdevice", .bool false), (c!"noipv4", .bool false), (c!"noipv6", .bool false), (c!"ipv6", .str c!""), (c!"activate", .none), (c!"nodefroute", .bool false), (c!"wpakey", .str c!""), (c!"bondslaves", .str c!""), (c!"bondopts", .str c!""), (c!"vlanid", .str c!""), (c!"ipv6gateway", .str c!""), (c!"teamslaves", .list []), (c!"teamconfig", .str c!""), (c!"interfacename", .str c!""), (c!"bridgeslaves", .str c!""), (c!"bridgeopts", .str c!"")]

theorem obeys_networkLines_7_base (n : Str) : Command.FirstBase (F24_Network.cls F22_NetworkData.cls) n [] obeys_networkLines_7_object := by
  intro b b' hb hb' line l; kernel_rfl

theorem obeys_networkLines_7_start : Command.FirstStart (F24_Network.cls F22_NetworkData.cls) obeys_networkLines_7_object (networkLines.start.getD 0 ([], [])).2 := fun _ => .inl ⟨fun _ => rfl, (all_cons (by kernel_rfl) (all_cons (by kernel_rfl) (List.forall_mem_nil _)))⟩

theorem obeys_networkLines_7_lines (n : Str) : ∀ i ∈ [21, 52, 53], Command.FirstLine (F24_Network.cls F22_NetworkData.cls) n [] obeys_networkLines_7_object (networkLines.lines.getD i noLine) :=
  (all_cons (by intro b b' hb hb' x hx line l; kernel_rfl)
    (all_cons (by intro b b' hb hb' x hx line l; (cases x with | nil => exact absurd rfl hx | cons a x => kernel_rfl))
    (all_cons (by intro b b' hb hb' x hx line l; kernel_rfl)
    (List.forall_mem_nil _))))

theorem obeys_networkLines_7 : ∀ v, [Version.F24].contains v = true → Command.Obeys (F24_Network.cls F22_NetworkData.cls) networkLines v :=
  obeys_of obeys_networkLines_7_object [0] [21, 52, 53] (obeys_networkLines_7_base _) (all_cons obeys_networkLines_7_start (List.forall_mem_nil _)) (obeys_networkLines_7_lines _) (by decide +kernel)

def obeys_networkLines_8_object (l : Nat) : Ns := [(c!"lineno", .int l), (c!"bootProto", .str c!"dhcp"), (c!"dhcpclass", .str c!""), (c!"device", .str c!""), (c!"essid", .str c!""), (c!"ethtool", .str c!""), (c!"gateway", .str c!""), (c!"hostname", .str c!""), (c!"ip", .str c!""), (c!"mtu", .str c!""), (c!"nameserver", .str c!""), (c!"netmask", .str c!""), (c!"nodns", .bool false), (c!"onboot", .bool true), (c!"wepkey", .str c!""), (c!"notksdevice", .bool false), (c!"noipv4", .bool false), (c!"noipv6", .bool false), (c!"ipv6", .str c!""), (c!"activate", .none), (c!"nodefroute", .bool false), (c!"wpakey", .str c!""), (c!"bondslaves", .str c!""), (c!"bondopts", .str c!""), (c!"vlanid", .str c!""), (c!"ipv6gateway", .str c!""), (c!"teamslaves", .list []), (c!"teamconfig", .str c!""), (c!"interfacename", .str c!""), (c!"bridgeslaves", .str c!""), (c!"bridgeopts", .str c!"")]

theorem obeys_networkLines_8_base (n : Str) : Command.FirstBase (F25_Network.cls F25_NetworkData.cls) n [] obeys_networkLines_8_object := by
  intro b b' hb hb' line l; kernel_rfl

theorem obeys_networkLines_8_start : Command.FirstStart (F25_Network.cls F25_NetworkData.cls) obeys_networkLines_8_object (networkLines.start.getD 0 ([], [])).2 := fun _ => .inl ⟨fun _ => rfl, (all_cons (by kernel_rfl) (all_cons (by kernel_rfl) (List.forall_mem_nil _)))⟩

theorem obeys_networkLines_8_lines (n : Str) : ∀ i ∈ [52, 54, 55], Command.FirstLine (F25_Network.cls F25_NetworkData.cls) n [] obeys_networkLines_8_object (networkLines.lines.getD i noLine) :=
  (all_cons (by intro b b' hb hb' x hx line l; (cases x with | nil => exact absurd rfl hx | cons a x => kernel_rfl))
    (all_cons (by intro b b' hb hb' x hx line l; kernel_rfl)
    (all_cons (by intro b b' hb hb' x hx line l; kernel_rfl)
    (List.forall_mem_nil _))))

theorem obeys_networkLines_8 : ∀ v, [Version.F25, Version.F26].contains v = true → Command.Obeys (F25_Network.cls F25_NetworkData.cls) networkLines v :=
  obeys_of obeys_networkLines_8_object [0] [52, 54, 55] (obeys_networkLines_8_base _) (all_cons obeys_networkLines_8_start (List.forall_mem_nil _)) (obeys_networkLines_8_lines _) (by decide +kernel)

def obeys_networkLines_9_object (l : Nat) : Ns := [(c!"lineno", .int l), (c!"bootProto", .str c!"dhcp"), (c!"dhcpclass", .str c!""), (c!"device", .str c!""), (c!"essid", .str c!""), (c!"ethtool", .str c!""), (c!"gateway", .str c!""), (c!"hostname", .str c!""), (c!"ip", .str c!""), (c!"mtu", .str c!""), (c!"nameserver", .str c!""), (c!"netmask", .str c!""), (c!"nodns", .bool false), (c!"onboot", .bool true), (c!"wepkey", .str c!""), (c!"notksdevice", .bool false), (c!"noipv4", .bool false), (c!"noipv6", .bool false), (c!"ipv6", .str c!""), (c!"activate", .none), (c!"nodefroute", .bool false), (c!"wpakey", .str c!""), (c!"bondslaves", .str c!""), (c!"bondopts", .str c!""), (c!"vlanid", .str c!""), (c!"ipv6gateway", .str c!""), (c!"teamslaves", .list []), (c!"teamconfig", .str c!""), (c!"interfacename", .str c!""), (c!"bridgeslaves", .str c!""), (c!"bridgeopts", .str c!""), (c!"bindto", .none)]

theorem obeys_networkLines_9_base (n : Str) : Command.FirstBase (F27_Network.cls F27_NetworkData.cls) n [] obeys_networkLines_9_object := by
  intro b b' hb hb' line l; kernel_rfl

theorem obeys_networkLines_9_start : Command.FirstStart (F27_Network.cls F27_NetworkData.cls) obeys_networkLines_9_object (networkLines.start.getD 0 ([], [])).2 := fun _ => .inl ⟨fun _ => rfl, (all_cons (by kernel_rfl) (all_cons (by kernel_rfl) (List.forall_mem_nil _)))⟩

theorem obeys_networkLines_9_lines (n : Str) : ∀ i ∈ [0, 1, 2, 3, 5, 6, 7, 8, 9, 10, 11, 12, 13, 14, 15, 16, 17, 18, 19, 21, 24, 26, 29, 31, 33, 35, 37, 39, 41, 43, 45, 47, 49, 51, 52, 54, 56], Command.FirstLine (F27_Network.cls F27_NetworkData.cls) n [] obeys_networkLines_9_object (networkLines.lines.getD i noLine) :=
  (all_cons (by intro b b' hb hb' x hx line l; kernel_rfl)
    (all_cons (by intro b b' hb hb' x hx line l; kernel_rfl)
    (all_cons (by intro b b' hb hb' x hx line l; kernel_rfl)
    (all_cons (by intro b b' hb hb' x hx line l; kernel_rfl)
    (all_cons (by intro b b' hb hb' x hx line l; (cases x with | nil => exact absurd rfl hx | cons a x => kernel_rfl))
    (all_cons (by intro b b' hb hb' x hx line l; (cases x with | nil => exact absurd rfl hx | cons a x => kernel_rfl))
    (all_cons (by intro b b' hb hb' x hx line l; (cases x with | nil => exact absurd rfl hx | cons a x => kernel_rfl))
    (all_cons (by intro b b' hb hb' x hx line l; (cases x with | nil => exact absurd rfl hx | cons a x => kernel_rfl))
    (all_cons (by intro b b' hb hb' x hx line l; (cases x with | nil => exact absurd rfl hx | cons a x => kernel_rfl))
    (all_cons (by intro b b' hb hb' x hx line l; (cases x with | nil => exact absurd rfl hx | cons a x => kernel_rfl))
    (all_cons (by intro b b' hb hb' x hx line l; (cases x with | nil => exact absurd rfl hx | cons a x => kernel_rfl))
    (all_cons (by intro b b' hb hb' x hx line l; (cases x with | nil => exact absurd rfl hx | cons a x => kernel_rfl))
    (all_cons (by intro b b' hb hb' x hx line l; (cases x with | nil => exact absurd rfl hx | cons a x => kernel_rfl))
    (all_cons (by intro b b' hb hb' x hx line l; (cases x with | nil => exact absurd rfl hx | cons a x => kernel_rfl))
    (all_cons (by intro b b' hb hb' x hx line l; kernel_rfl)
    (all_cons (by intro b b' hb hb' x hx line l; kernel_rfl)
    (all_cons (by intro b b' hb hb' x hx line l; kernel_rfl)
    (all_cons (by intro b b' hb hb' x hx line l; (cases x with | nil => exact absurd rfl hx | cons a x => kernel_rfl))
    (all_cons (by intro b b' hb hb' x hx line l; kernel_rfl)
    (all_cons (by intro b b' hb hb' x hx line l; kernel_rfl)
    (all_cons (by intro b b' hb hb' x hx line l; kernel_rfl)
    (all_cons (by intro b b' hb hb' x hx line l; (cases x with | nil => exact absurd rfl hx | cons a x => kernel_rfl))
    (all_cons (by intro b b' hb hb' x hx line l; kernel_rfl)
    (all_cons (by intro b b' hb hb' x hx line l; kernel_rfl)
    (all_cons (by intro b b' hb hb' x hx line l; kernel_rfl)
    (all_cons (by intro b b' hb hb' x hx line l; (cases x with | nil => exact absurd rfl hx | cons a x => kernel_rfl))
    (all_cons (by intro b b' hb hb' x hx line l; (cases x with | nil => exact absurd rfl hx | cons a x => kernel_rfl))
    (all_cons (by intro b b' hb hb' x hx line l; (cases x with | nil => exact absurd rfl hx | cons a x => kernel_rfl))
    (all_cons (by intro b b' hb hb' x hx line l; (cases x with | nil => exact absurd rfl hx | cons a x => kernel_rfl))
    (all_cons (by intro b b' hb hb' x hx line l; (cases x with | nil => exact absurd rfl hx | cons a x => kernel_rfl))
    (all_cons (by intro b b' hb hb' x hx line l; kernel_rfl)
    (all_cons (by intro b b' hb hb' x hx line l; (cases x with | nil => exact absurd rfl hx | cons a x => kernel_rfl))
    (all_cons (by intro b b' hb hb' x hx line l; (cases x with | nil => exact absurd rfl hx | cons a x => kernel_rfl))
    (all_cons (by intro b b' hb hb' x hx line l; (cases x with | nil => exact absurd rfl hx | cons a x => kernel_rfl))
    (all_cons (by intro b b' hb hb' x hx line l; (cases x with | nil => exact absurd rfl hx | cons a x => kernel_rfl))
    (all_cons (by intro b b' hb hb' x hx line l; kernel_rfl)
    (all_cons (by intro b b' hb hb' x hx line l; kernel_rfl)
    (List.forall_mem_nil _))))))))))))))))))))))))))))))))))))))

theorem obeys_networkLines_9 : ∀ v, [Version.F27, Version.F28, Version.RHEL8, Version.F29, Version.F30, Version.F31, Version.F32, Version.F33, Version.F34].contains v = true → Command.Obeys (F27_Network.cls F27_NetworkData.cls) networkLines v :=
  obeys_of obeys_networkLines_9_object [0] [0, 1, 2, 3, 5, 6, 7, 8, 9, 10, 11, 12, 13, 14, 15, 16, 17, 18, 19, 21, 24, 26, 29, 31, 33, 35, 37, 39, 41, 43, 45, 47, 49, 51, 52, 54, 56] (obeys_networkLines_9_base _) (all_cons obeys_networkLines_9_start (List.forall_mem_nil _)) (obeys_networkLines_9_lines _) (by decide +kernel)

def obeys_networkLines_10_object (l : Nat) : Ns := [(c!"lineno", .int l), (c!"bootProto", .str c!"dhcp"), (c!"dhcpclass", .str c!""), (c!"device", .str c!""), (c!"essid", .str c!""), (c!"ethtool", .str c!""), (c!"gateway", .str c!""), (c!"hostname", .str c!""), (c!"ip", .str c!""), (c!"mtu", .str c!""), (c!"nameserver", .str c!""), (c!"netmask", .str c!""), (c!"nodns", .bool false), (c!"onboot", .bool true), (c!"wepkey", .str c!""), (c!"notksdevice", .bool false), (c!"noipv4", .bool false), (c!"noipv6", .bool false)]

theorem obeys_networkLines_10_base (n : Str) : Command.FirstBase (FC6_Network.cls FC6_NetworkData.cls) n [] obeys_networkLines_10_object := by
  intro b b' hb hb' line l; kernel_rfl

theorem obeys_networkLines_10_start : Command.FirstStart (FC6_Network.cls FC6_NetworkData.cls) obeys_networkLines_10_object (networkLines.start.getD 0 ([], [])).2 := fun _ => .inl ⟨fun _ => rfl, (all_cons (by kernel_rfl) (all_cons (by kernel_rfl) (List.forall_mem_nil _)))⟩

theorem obeys_networkLines_10_lines (n : Str) : ∀ i ∈ [4, 22, 24, 27, 52], Command.FirstLine (FC6_Network.cls FC6_NetworkData.cls) n [] obeys_networkLines_10_object (networkLines.lines.getD i noLine) :=
  (all_cons (by intro b b' hb hb' x hx line l; kernel_rfl)
    (all_cons (by intro b b' hb hb' x hx line l; kernel_rfl)
    (all_cons (by intro b b' hb hb' x hx line l; kernel_rfl)
    (all_cons (by intro b b' hb hb' x hx line l; (cases x with | nil => exact absurd rfl hx | cons a x => kernel_rfl))
    (all_cons (by intro b b' hb hb' x hx line l; (cases x with | nil => exact absurd rfl hx | cons a x => kernel_rfl))
    (List.forall_mem_nil _))))))

theorem obeys_networkLines_10 : ∀ v, [Version.FC6, Version.F7].contains v = true → Command.Obeys (FC6_Network.cls FC6_NetworkData.cls) networkLines v :=
  obeys_of obeys_networkLines_10_object [0] [4, 22, 24, 27, 52] (obeys_networkLines_10_base _) (all_cons obeys_networkLines_10_start (List.forall_mem_nil _)) (obeys_networkLines_10_lines _) (by decide +kernel)

def obeys_networkLines_11_object (l : Nat) : Ns := [(c!"lineno", .int l), (c!"bootProto", .str c!"dhcp"), (c!"dhcpclass", .str c!""), (c!"device", .str c!""), (c!"essid", .str c!""), (c!"ethtool", .str c!""), (c!"gateway", .str c!""), (c!"hostname", .str c!""), (c!"ip", .str c!""), (c!"mtu", .str c!""), (c!"nameserver", .str c!""), (c!"netmask", .str c!""), (c!"nodns", .bool false), (c!"onboot", .bool true), (c!"wepkey", .str c!""), (c!"notksdevice", .bool false), (c!"noipv4", .bool false), (c!"noipv6", .bool false), (c!"ipv6", .str c!"")]

theorem obeys_networkLines_11_base (n : Str) : Command.FirstBase (F8_Network.cls F8_NetworkData.cls) n [] obeys_networkLines_11_object := by
  intro b b' hb hb' line l; kernel_rfl

theorem obeys_networkLines_11_start : Command.FirstStart (F8_Network.cls F8_NetworkData.cls) obeys_networkLines_11_object (networkLines.start.getD 0 ([], [])).2 := fun _ => .inl ⟨fun _ => rfl, (all_cons (by kernel_rfl) (all_cons (by kernel_rfl) (List.forall_mem_nil _)))⟩

theorem obeys_networkLines_11_lines (n : Str) : ∀ i ∈ [4, 26, 52], Command.FirstLine (F8_Network.cls F8_NetworkData.cls) n [] obeys_networkLines_11_object (networkLines.lines.getD i noLine) :=
  (all_cons (by intro b b' hb hb' x hx line l; kernel_rfl)
    (all_cons (by intro b b' hb hb' x hx line l; (cases x with | nil => exact absurd rfl hx | cons a x => kernel_rfl))
    (all_cons (by intro b b' hb hb' x hx line l; (cases x with | nil => exact absurd rfl hx | cons a x => kernel_rfl))
    (List.forall_mem_nil _))))

theorem obeys_networkLines_11 : ∀ v, [Version.F8].contains v = true → Command.Obeys (F8_Network.cls F8_NetworkData.cls) networkLines v :=
  obeys_of obeys_networkLines_11_object [0] [4, 26, 52] (obeys_networkLines_11_base _) (all_cons obeys_networkLines_11_start (List.forall_mem_nil _)) (obeys_networkLines_11_lines _) (by decide +kernel)

def obeys_networkLines_12_object (l : Nat) : Ns := [(c!"lineno", .int l), (c!"bootProto", .str c!"dhcp"), (c!"dhcpclass", .str c!""), (c!"device", .str c!""), (c!"essid", .str c!""), (c!"ethtool", .str c!""), (c!"gateway", .str c!""), (c!"hostname", .str c!""), (c!"ip", .str c!""), (c!"mtu", .str c!""), (c!"nameserver", .str c!""), (c!"netmask", .str c!""), (c!"nodns", .bool false), (c!"onboot", .bool true), (c!"wepkey", .str c!"")]

theorem obeys_networkLines_12_base (n : Str) : Command.FirstBase (FC3_Network.cls FC3_NetworkData.cls) n [] obeys_networkLines_12_object := by
  intro b b' hb hb' line l; kernel_rfl

theorem obeys_networkLines_12_start : Command.FirstStart (FC3_Network.cls FC3_NetworkData.cls) obeys_networkLines_12_object (networkLines.start.getD 0 ([], [])).2 := fun _ => .inl ⟨fun _ => rfl, (all_cons (by kernel_rfl) (all_cons (by kernel_rfl) (List.forall_mem_nil _)))⟩

theorem obeys_networkLines_12_lines (n : Str) : ∀ i ∈ [20, 52], Command.FirstLine (FC3_Network.cls FC3_NetworkData.cls) n [] obeys_networkLines_12_object (networkLines.lines.getD i noLine) :=
  (all_cons (by intro b b' hb hb' x hx line l; kernel_rfl)
    (all_cons (by intro b b' hb hb' x hx line l; (cases x with | nil => exact absurd rfl hx | cons a x => kernel_rfl))
    (List.forall_mem_nil _)))

theorem obeys_networkLines_12 : ∀ v, [Version.FC3].contains v = true → Command.Obeys (FC3_Network.cls FC3_NetworkData.cls) networkLines v :=
  obeys_of obeys_networkLines_12_object [0] [20, 52] (obeys_networkLines_12_base _) (all_cons obeys_networkLines_12_start (List.forall_mem_nil _)) (obeys_networkLines_12_lines _) (by decide +kernel)

def obeys_networkLines_13_object (l : Nat) : Ns := [(c!"lineno", .int l), (c!"bootProto", .str c!"dhcp"), (c!"dhcpclass", .str c!""), (c!"device", .str c!""), (c!"essid", .str c!""), (c!"ethtool", .str c!""), (c!"gateway", .str c!""), (c!"hostname", .str c!""), (c!"ip", .str c!""), (c!"mtu", .str c!""), (c!"nameserver", .str c!""), (c!"netmask", .str c!""), (c!"nodns", .bool false), (c!"onboot", .bool true), (c!"wepkey", .str c!""), (c!"notksdevice", .bool false)]

theorem obeys_networkLines_13_base (n : Str) : Command.FirstBase (FC4_Network.cls FC4_NetworkData.cls) n [] obeys_networkLines_13_object := by
  intro b b' hb hb' line l; kernel_rfl

theorem obeys_networkLines_13_start : Command.FirstStart (FC4_Network.cls FC4_NetworkData.cls) obeys_networkLines_13_object (networkLines.start.getD 0 ([], [])).2 := fun _ => .inl ⟨fun _ => rfl, (all_cons (by kernel_rfl) (all_cons (by kernel_rfl) (List.forall_mem_nil _)))⟩

theorem obeys_networkLines_13_lines (n : Str) : ∀ i ∈ [23, 25, 52], Command.FirstLine (FC4_Network.cls FC4_NetworkData.cls) n [] obeys_networkLines_13_object (networkLines.lines.getD i noLine) :=
  (all_cons (by intro b b' hb hb' x hx line l; kernel_rfl)
    (all_cons (by intro b b' hb hb' x hx line l; kernel_rfl)
    (all_cons (by intro b b' hb hb' x hx line l; (cases x with | nil => exact absurd rfl hx | cons a x => kernel_rfl))
    (List.forall_mem_nil _))))

theorem obeys_networkLines_13 : ∀ v, [Version.FC4, Version.FC5].contains v = true → Command.Obeys (FC4_Network.cls FC4_NetworkData.cls) networkLines v :=
  obeys_of obeys_networkLines_13_object [0] [23, 25, 52] (obeys_networkLines_13_base _) (all_cons obeys_networkLines_13_start (List.forall_mem_nil _)) (obeys_networkLines_13_lines _) (by decide +kernel)

def obeys_networkLines_14_object (l : Nat) : Ns := [(c!"lineno", .int l), (c!"bootProto", .str c!"dhcp"), (c!"dhcpclass", .str c!""), (c!"device", .str c!""), (c!"essid", .str c!""), (c!"ethtool", .str c!""), (c!"gateway", .str c!""), (c!"hostname", .str c!""), (c!"ip", .str c!""), (c!"mtu", .str c!""), (c!"nameserver", .str c!""), (c!"netmask", .str c!""), (c!"nodns", .bool false), (c!"onboot", .bool true), (c!"wepkey", .str c!""), (c!"notksdevice", .bool false)]

theorem obeys_networkLines_14_base (n : Str) : Command.FirstBase (FC3_Network.cls RHEL4_NetworkData.cls) n [] obeys_networkLines_14_object := by
  intro b b' hb hb' line l; kernel_rfl

theorem obeys_networkLines_14_start : Command.FirstStart (FC3_Network.cls RHEL4_NetworkData.cls) obeys_networkLines_14_object (networkLines.start.getD 0 ([], [])).2 := fun _ => .inl ⟨fun _ => rfl, (all_cons (by kernel_rfl) (all_cons (by kernel_rfl) (List.forall_mem_nil _)))⟩

theorem obeys_networkLines_14_lines (n : Str) : ∀ i ∈ [0, 1, 2, 5, 6, 7, 8, 9, 10, 11, 12, 13, 14, 15, 16, 17, 18, 52], Command.FirstLine (FC3_Network.cls RHEL4_NetworkData.cls) n [] obeys_networkLines_14_object (networkLines.lines.getD i noLine) :=
  (all_cons (by intro b b' hb hb' x hx line l; kernel_rfl)
    (all_cons (by intro b b' hb hb' x hx line l; kernel_rfl)
    (all_cons (by intro b b' hb hb' x hx line l; kernel_rfl)
    (all_cons (by intro b b' hb hb' x hx line l; (cases x with | nil => exact absurd rfl hx | cons a x => kernel_rfl))
    (all_cons (by intro b b' hb hb' x hx line l; (cases x with | nil => exact absurd rfl hx | cons a x => kernel_rfl))
    (all_cons (by intro b b' hb hb' x hx line l; (cases x with | nil => exact absurd rfl hx | cons a x => kernel_rfl))
    (all_cons (by intro b b' hb hb' x hx line l; (cases x with | nil => exact absurd rfl hx | cons a x => kernel_rfl))
    (all_cons (by intro b b' hb hb' x hx line l; (cases x with | nil => exact absurd rfl hx | cons a x => kernel_rfl))
    (all_cons (by intro b b' hb hb' x hx line l; (cases x with | nil => exact absurd rfl hx | cons a x => kernel_rfl))
    (all_cons (by intro b b' hb hb' x hx line l; (cases x with | nil => exact absurd rfl hx | cons a x => kernel_rfl))
    (all_cons (by intro b b' hb hb' x hx line l; (cases x with | nil => exact absurd rfl hx | cons a x => kernel_rfl))
    (all_cons (by intro b b' hb hb' x hx line l; (cases x with | nil => exact absurd rfl hx | cons a x => kernel_rfl))
    (all_cons (by intro b b' hb hb' x hx line l; (cases x with | nil => exact absurd rfl hx | cons a x => kernel_rfl))
    (all_cons (by intro b b' hb hb' x hx line l; kernel_rfl)
    (all_cons (by intro b b' hb hb' x hx line l; kernel_rfl)
    (all_cons (by intro b b' hb hb' x hx line l; kernel_rfl)
    (all_cons (by intro b b' hb hb' x hx line l; (cases x with | nil => exact absurd rfl hx | cons a x => kernel_rfl))
    (all_cons (by intro b b' hb hb' x hx line l; (cases x with | nil => exact absurd rfl hx | cons a x => kernel_rfl))
    (List.forall_mem_nil _)))))))))))))))))))

theorem obeys_networkLines_14 : ∀ v, [Version.RHEL3].contains v = true → Command.Obeys (FC3_Network.cls RHEL4_NetworkData.cls) networkLines v :=
  obeys_of obeys_networkLines_14_object [0] [0, 1, 2, 5, 6, 7, 8, 9, 10, 11, 12, 13, 14, 15, 16, 17, 18, 52] (obeys_networkLines_14_base _) (all_cons obeys_networkLines_14_start (List.forall_mem_nil _)) (obeys_networkLines_14_lines _) (by decide +kernel)

def obeys_networkLines_15_object (l : Nat) : Ns := [(c!"lineno", .int l), (c!"bootProto", .str c!"dhcp"), (c!"dhcpclass", .str c!""), (c!"device", .str c!""), (c!"essid", .str c!""), (c!"ethtool", .str c!""), (c!"gateway", .str c!""), (c!"hostname", .str c!""), (c!"ip", .str c!""), (c!"mtu", .str c!""), (c!"nameserver", .str c!""), (c!"netmask", .str c!""), (c!"nodns", .bool false), (c!"onboot", .bool true), (c!"wepkey", .str c!""), (c!"notksdevice", .bool false)]

theorem obeys_networkLines_15_base (n : Str) : Command.FirstBase (RHEL4_Network.cls RHEL4_NetworkData.cls) n [] obeys_networkLines_15_object := by
  intro b b' hb hb' line l; kernel_rfl

theorem obeys_networkLines_15_start : Command.FirstStart (RHEL4_Network.cls RHEL4_NetworkData.cls) obeys_networkLines_15_object (networkLines.start.getD 0 ([], [])).2 := fun _ => .inl ⟨fun _ => rfl, (all_cons (by kernel_rfl) (all_cons (by kernel_rfl) (List.forall_mem_nil _)))⟩

theorem obeys_networkLines_15_lines (n : Str) : ∀ i ∈ [19, 52], Command.FirstLine (RHEL4_Network.cls RHEL4_NetworkData.cls) n [] obeys_networkLines_15_object (networkLines.lines.getD i noLine) :=
  (all_cons (by intro b b' hb hb' x hx line l; kernel_rfl)
    (all_cons (by intro b b' hb hb' x hx line l; (cases x with | nil => exact absurd rfl hx | cons a x => kernel_rfl))
    (List.forall_mem_nil _)))

theorem obeys_networkLines_15 : ∀ v, [Version.RHEL4].contains v = true → Command.Obeys (RHEL4_Network.cls RHEL4_NetworkData.cls) networkLines v :=
  obeys_of obeys_networkLines_15_object [0] [19, 52] (obeys_networkLines_15_base _) (all_cons obeys_networkLines_15_start (List.forall_mem_nil _)) (obeys_networkLines_15_lines _) (by decide +kernel)

def obeys_networkLines_16_object (l : Nat) : Ns := [(c!"lineno", .int l), (c!"bootProto", .str c!"dhcp"), (c!"dhcpclass", .str c!""), (c!"device", .str c!""), (c!"essid", .str c!""), (c!"ethtool", .str c!""), (c!"gateway", .str c!""), (c!"hostname", .str c!""), (c!"ip", .str c!""), (c!"mtu", .str c!""), (c!"nameserver", .str c!""), (c!"netmask", .str c!""), (c!"nodns", .bool false), (c!"onboot", .bool true), (c!"wepkey", .str c!""), (c!"notksdevice", .bool false), (c!"noipv4", .bool false), (c!"noipv6", .bool false)]

theorem obeys_networkLines_16_base (n : Str) : Command.FirstBase (RHEL5_Network.cls FC6_NetworkData.cls) n [] obeys_networkLines_16_object := by
  intro b b' hb hb' line l; kernel_rfl

theorem obeys_networkLines_16_start : Command.FirstStart (RHEL5_Network.cls FC6_NetworkData.cls) obeys_networkLines_16_object (networkLines.start.getD 0 ([], [])).2 := fun _ => .inl ⟨fun _ => rfl, (all_cons (by kernel_rfl) (all_cons (by kernel_rfl) (List.forall_mem_nil _)))⟩

theorem obeys_networkLines_16_lines (n : Str) : ∀ i ∈ [3, 52], Command.FirstLine (RHEL5_Network.cls FC6_NetworkData.cls) n [] obeys_networkLines_16_object (networkLines.lines.getD i noLine) :=
  (all_cons (by intro b b' hb hb' x hx line l; kernel_rfl)
    (all_cons (by intro b b' hb hb' x hx line l; (cases x with | nil => exact absurd rfl hx | cons a x => kernel_rfl))
    (List.forall_mem_nil _)))

theorem obeys_networkLines_16 : ∀ v, [Version.RHEL5].contains v = true → Command.Obeys (RHEL5_Network.cls FC6_NetworkData.cls) networkLines v :=
  obeys_of obeys_networkLines_16_object [0] [3, 52] (obeys_networkLines_16_base _) (all_cons obeys_networkLines_16_start (List.forall_mem_nil _)) (obeys_networkLines_16_lines _) (by decide +kernel)

def obeys_networkLines_17_object (l : Nat) : Ns := [(c!"lineno", .int l), (c!"bootProto", .str c!"dhcp"), (c!"dhcpclass", .str c!""), (c!"device", .str c!""), (c!"essid", .str c!""), (c!"ethtool", .str c!""), (c!"gateway", .str c!""), (c!"hostname", .str c!""), (c!"ip", .str c!""), (c!"mtu", .str c!""), (c!"nameserver", .str c!""), (c!"netmask", .str c!""), (c!"nodns", .bool false), (c!"onboot", .bool true), (c!"wepkey", .str c!""), (c!"notksdevice", .bool false), (c!"noipv4", .bool false), (c!"noipv6", .bool false), (c!"ipv6", .str c!""), (c!"activate", .none), (c!"nodefroute", .bool false), (c!"vlanid", .str c!""), (c!"bondslaves", .str c!""), (c!"bondopts", .str c!"")]

theorem obeys_networkLines_17_base (n : Str) : Command.FirstBase (RHEL6_Network.cls RHEL6_NetworkData.cls) n [] obeys_networkLines_17_object := by
  intro b b' hb hb' line l; kernel_rfl

theorem obeys_networkLines_17_start : Command.FirstStart (RHEL6_Network.cls RHEL6_NetworkData.cls) obeys_networkLines_17_object (networkLines.start.getD 0 ([], [])).2 := fun _ => .inl ⟨fun _ => rfl, (all_cons (by kernel_rfl) (all_cons (by kernel_rfl) (List.forall_mem_nil _)))⟩

theorem obeys_networkLines_17_lines (n : Str) : ∀ i ∈ [29, 31, 33, 37, 39, 41, 52], Command.FirstLine (RHEL6_Network.cls RHEL6_NetworkData.cls) n [] obeys_networkLines_17_object (networkLines.lines.getD i noLine) :=
  (all_cons (by intro b b' hb hb' x hx line l; kernel_rfl)
    (all_cons (by intro b b' hb hb' x hx line l; kernel_rfl)
    (all_cons (by intro b b' hb hb' x hx line l; kernel_rfl)
    (all_cons (by intro b b' hb hb' x hx line l; (cases x with | nil => exact absurd rfl hx | cons a x => kernel_rfl))
    (all_cons (by intro b b' hb hb' x hx line l; (cases x with | nil => exact absurd rfl hx | cons a x => kernel_rfl))
    (all_cons (by intro b b' hb hb' x hx line l; (cases x with | nil => exact absurd rfl hx | cons a x => kernel_rfl))
    (all_cons (by intro b b' hb hb' x hx line l; (cases x with | nil => exact absurd rfl hx | cons a x => kernel_rfl))
    (List.forall_mem_nil _))))))))

theorem obeys_networkLines_17 : ∀ v, [Version.RHEL6].contains v = true → Command.Obeys (RHEL6_Network.cls RHEL6_NetworkData.cls) networkLines v :=
  obeys_of obeys_networkLines_17_object [0] [29, 31, 33, 37, 39, 41, 52] (obeys_networkLines_17_base _) (all_cons obeys_networkLines_17_start (List.forall_mem_nil _)) (obeys_networkLines_17_lines _) (by decide +kernel)

def obeys_networkLines_18_object (l : Nat) : Ns := [(c!"lineno", .int l), (c!"bootProto", .str c!"dhcp"), (c!"dhcpclass", .str c!""), (c!"device", .str c!""), (c!"essid", .str c!""), (c!"ethtool", .str c!""), (c!"gateway", .str c!""), (c!"hostname", .str c!""), (c!"ip", .str c!""), (c!"mtu", .str c!""), (c!"nameserver", .str c!""), (c!"netmask", .str c!""), (c!"nodns", .bool false), (c!"onboot", .bool true), (c!"wepkey", .str c!""), (c!"notksdevice", .bool false), (c!"noipv4", .bool false), (c!"noipv6", .bool false), (c!"ipv6", .str c!""), (c!"activate", .none), (c!"nodefroute", .bool false), (c!"wpakey", .str c!""), (c!"bondslaves", .str c!""), (c!"bondopts", .str c!""), (c!"vlanid", .str c!""), (c!"ipv6gateway", .str c!""), (c!"teamslaves", .list []), (c!"teamconfig", .str c!""), (c!"interfacename", .str c!""), (c!"bridgeslaves", .str c!""), (c!"bridgeopts", .str c!""), (c!"bindto", .none)]

theorem obeys_networkLines_18_base (n : Str) : Command.FirstBase (RHEL7_Network.cls RHEL7_NetworkData.cls) n [] obeys_networkLines_18_object := by
  intro b b' hb hb' line l; kernel_rfl

theorem obeys_networkLines_18_start : Command.FirstStart (RHEL7_Network.cls RHEL7_NetworkData.cls) obeys_networkLines_18_object (networkLines.start.getD 0 ([], [])).2 := fun _ => .inl ⟨fun _ => rfl, (all_cons (by kernel_rfl) (all_cons (by kernel_rfl) (List.forall_mem_nil _)))⟩

theorem obeys_networkLines_18_lines (n : Str) : ∀ i ∈ [51, 52, 54, 56], Command.FirstLine (RHEL7_Network.cls RHEL7_NetworkData.cls) n [] obeys_networkLines_18_object (networkLines.lines.getD i noLine) :=
  (all_cons (by intro b b' hb hb' x hx line l; (cases x with | nil => exact absurd rfl hx | cons a x => kernel_rfl))
    (all_cons (by intro b b' hb hb' x hx line l; (cases x with | nil => exact absurd rfl hx | cons a x => kernel_rfl))
    (all_cons (by intro b b' hb hb' x hx line l; kernel_rfl)
    (all_cons (by intro b b' hb hb' x hx line l; kernel_rfl)
    (List.forall_mem_nil _)))))

theorem obeys_networkLines_18 : ∀ v, [Version.RHEL7].contains v = true → Command.Obeys (RHEL7_Network.cls RHEL7_NetworkData.cls) networkLines v :=
  obeys_of obeys_networkLines_18_object [0] [51, 52, 54, 56] (obeys_networkLines_18_base _) (all_cons obeys_networkLines_18_start (List.forall_mem_nil _)) (obeys_networkLines_18_lines _) (by decide +kernel)

theorem obeys_networkLines : networkLines.Obeyed := by
  unfold CommandLines.Obeyed commandMaps
  exact (all_cons (fun _ c h => by cases h; exact obeys_networkLines_0 _ rfl)
    (all_cons (fun _ c h => by cases h; exact obeys_networkLines_0 _ rfl)
    (all_cons (fun _ c h => by cases h; exact obeys_networkLines_0 _ rfl)
    (all_cons (fun _ c h => by cases h; exact obeys_networkLines_0 _ rfl)
    (all_cons (fun _ c h => by cases h; exact obeys_networkLines_0 _ rfl)
    (all_cons (fun _ c h => by cases h; exact obeys_networkLines_0 _ rfl)
    (all_cons (fun _ c h => by cases h; exact obeys_networkLines_1 _ rfl)
    (all_cons (fun _ c h => by cases h; exact obeys_networkLines_1 _ rfl)
    (all_cons (fun _ c h => by cases h; exact obeys_networkLines_2 _ rfl)
    (all_cons (fun _ c h => by cases h; exact obeys_networkLines_3 _ rfl)
    (all_cons (fun _ c h => by cases h; exact obeys_networkLines_4 _ rfl)
    (all_cons (fun _ c h => by cases h; exact obeys_networkLines_5 _ rfl)
    (all_cons (fun _ c h => by cases h; exact obeys_networkLines_6 _ rfl)
    (all_cons (fun _ c h => by cases h; exact obeys_networkLines_6 _ rfl)
    (all_cons (fun _ c h => by cases h; exact obeys_networkLines_7 _ rfl)
    (all_cons (fun _ c h => by cases h; exact obeys_networkLines_8 _ rfl)
    (all_cons (fun _ c h => by cases h; exact obeys_networkLines_8 _ rfl)
    (all_cons (fun _ c h => by cases h; exact obeys_networkLines_9 _ rfl)
    (all_cons (fun _ c h => by cases h; exact obeys_networkLines_9 _ rfl)
    (all_cons (fun _ c h => by cases h; exact obeys_networkLines_9 _ rfl)
    (all_cons (fun _ c h => by cases h; exact obeys_networkLines_9 _ rfl)
    (all_cons (fun _ c h => by cases h; exact obeys_networkLines_9 _ rfl)
    (all_cons (fun _ c h => by cases h; exact obeys_networkLines_9 _ rfl)
    (all_cons (fun _ c h => by cases h; exact obeys_networkLines_9 _ rfl)
    (all_cons (fun _ c h => by cases h; exact obeys_networkLines_9 _ rfl)
    (all_cons (fun _ c h => by cases h; exact obeys_networkLines_10 _ rfl)
    (all_cons (fun _ c h => by cases h; exact obeys_networkLines_11 _ rfl)
    (all_cons (fun _ c h => by cases h; exact obeys_networkLines_0 _ rfl)
    (all_cons (fun _ c h => by cases h; exact obeys_networkLines_12 _ rfl)
    (all_cons (fun _ c h => by cases h; exact obeys_networkLines_13 _ rfl)
    (all_cons (fun _ c h => by cases h; exact obeys_networkLines_13 _ rfl)
    (all_cons (fun _ c h => by cases h; exact obeys_networkLines_10 _ rfl)
    (all_cons (fun _ c h => by cases h; exact obeys_networkLines_14 _ rfl)
    (all_cons (fun _ c h => by cases h; exact obeys_networkLines_15 _ rfl)
    (all_cons (fun _ c h => by cases h; exact obeys_networkLines_16 _ rfl)
    (all_cons (fun _ c h => by cases h; exact obeys_networkLines_17 _ rfl)
    (all_cons (fun _ c h => by cases h; exact obeys_networkLines_18 _ rfl)
    (all_cons (fun _ c h => by cases h; exact obeys_networkLines_9 _ rfl) (List.forall_mem_nil _)))))))))))))))))))))))))))))))))))))))

def obeys_networkLines2_0_object (l : Nat) : Ns := [(c!"lineno", .int l), (c!"bootProto", .str c!"dhcp"), (c!"dhcpclass", .str c!""), (c!"device", .str c!"b"), (c!"essid", .str c!""), (c!"ethtool", .str c!""), (c!"gateway", .str c!""), (c!"hostname", .str c!""), (c!"ip", .str c!""), (c!"mtu", .str c!""), (c!"nameserver", .str c!""), (c!"netmask", .str c!""), (c!"nodns", .bool false), (c!"onboot", .bool true), (c!"wepkey", .str c!""), (c!"notksdevice", .bool false), (c!"noipv4", .bool false), (c!"noipv6", .bool false), (c!"ipv6", .str c!""), (c!"activate", .none), (c!"nodefroute", .bool false), (c!"wpakey", .str c!""), (c!"bondslaves", .str c!""), (c!"bondopts", .str c!""), (c!"vlanid", .str c!""), (c!"ipv6gateway", .str c!""), (c!"teamslaves", .list []), (c!"teamconfig", .str c!""), (c!"interfacename", .str c!""), (c!"bridgeslaves", .str c!"e"), (c!"bridgeopts", .str c!"")]

theorem obeys_networkLines2_0_base (n : Str) : Command.FirstBase (F22_Network.cls F22_NetworkData.cls) n [c!"--device=b", c!"--bridgeslaves=e"] obeys_networkLines2_0_object := by
  intro b b' hb hb' line l; kernel_rfl

theorem obeys_networkLines2_0_start : Command.FirstStart (F22_Network.cls F22_NetworkData.cls) obeys_networkLines2_0_object (networkLines2.start.getD 0 ([], [])).2 := fun _ => .inl ⟨fun _ => rfl, (all_cons (by kernel_rfl) (all_cons (by kernel_rfl) (all_cons (by kernel_rfl) (all_cons (by kernel_rfl) (List.forall_mem_nil _)))))⟩

theorem obeys_networkLines2_0_lines (n : Str) : ∀ i ∈ [1], Command.FirstLine (F22_Network.cls F22_NetworkData.cls) n [c!"--device=b", c!"--bridgeslaves=e"] obeys_networkLines2_0_object (networkLines2.lines.getD i noLine) :=
  (all_cons (by intro b b' hb hb' x hx line l; kernel_rfl)
    (List.forall_mem_nil _))

theorem obeys_networkLines2_0 : ∀ v, [Version.F22, Version.F23].contains v = true → Command.Obeys (F22_Network.cls F22_NetworkData.cls) networkLines2 v :=
  obeys_of obeys_networkLines2_0_object [0] [1] (obeys_networkLines2_0_base _) (all_cons obeys_networkLines2_0_start (List.forall_mem_nil _)) (obeys_networkLines2_0_lines _) (by decide +kernel)

def obeys_networkLines2_1_object (l : Nat) : Ns := [(c!"lineno", .int l), (c!"bootProto", .str c!"dhcp"), (c!"dhcpclass", .str c!""), (c!"device", .str c!"b"), (c!"essid", .str c!""), (c!"ethtool", .str c!""), (c!"gateway", .str c!""), (c!"hostname", .str c!""), (c!"ip", .str c!""), (c!"mtu", .str c!""), (c!"nameserver", .str c!""), (c!"netmask", .str c!""), (c!"nodns", .bool false), (c!"onboot", .bool true), (c!"wepkey", .str c!""), (c!"notksdevice", .bool false), (c!"noipv4", .bool false), (c!"noipv6", .bool false), (c!"ipv6", .str c!""), (c!"activate", .none), (c!"nodefroute", .bool false), (c!"wpakey", .str c!""), (c!"bondslaves", .str c!""), (c!"bondopts", .str c!""), (c!"vlanid", .str c!""), (c!"ipv6gateway", .str c!""), (c!"teamslaves", .list []), (c!"teamconfig", .str c!""), (c!"interfacename", .str c!""), (c!"bridgeslaves", .str c!"e"), (c!"bridgeopts", .str c!"")]

theorem obeys_networkLines2_1_base (n : Str) : Command.FirstBase (F24_Network.cls F22_NetworkData.cls) n [c!"--device=b", c!"--bridgeslaves=e"] obeys_networkLines2_1_object := by
  intro b b' hb hb' line l; kernel_rfl

theorem obeys_networkLines2_1_start : Command.FirstStart (F24_Network.cls F22_NetworkData.cls) obeys_networkLines2_1_object (networkLines2.start.getD 0 ([], [])).2 := fun _ => .inl ⟨fun _ => rfl, (all_cons (by kernel_rfl) (all_cons (by kernel_rfl) (all_cons (by kernel_rfl) (all_cons (by kernel_rfl) (List.forall_mem_nil _)))))⟩

theorem obeys_networkLines2_1_lines (n : Str) : ∀ i ∈ [1], Command.FirstLine (F24_Network.cls F22_NetworkData.cls) n [c!"--device=b", c!"--bridgeslaves=e"] obeys_networkLines2_1_object (networkLines2.lines.getD i noLine) :=
  (all_cons (by intro b b' hb hb' x hx line l; kernel_rfl)
    (List.forall_mem_nil _))

theorem obeys_networkLines2_1 : ∀ v, [Version.F24].contains v = true → Command.Obeys (F24_Network.cls F22_NetworkData.cls) networkLines2 v :=
  obeys_of obeys_networkLines2_1_object [0] [1] (obeys_networkLines2_1_base _) (all_cons obeys_networkLines2_1_start (List.forall_mem_nil _)) (obeys_networkLines2_1_lines _) (by decide +kernel)

def obeys_networkLines2_2_object (l : Nat) : Ns := [(c!"lineno", .int l), (c!"bootProto", .str c!"dhcp"), (c!"dhcpclass", .str c!""), (c!"device", .str c!"b"), (c!"essid", .str c!""), (c!"ethtool", .str c!""), (c!"gateway", .str c!""), (c!"hostname", .str c!""), (c!"ip", .str c!""), (c!"mtu", .str c!""), (c!"nameserver", .str c!""), (c!"netmask", .str c!""), (c!"nodns", .bool false), (c!"onboot", .bool true), (c!"wepkey", .str c!""), (c!"notksdevice", .bool false), (c!"noipv4", .bool false), (c!"noipv6", .bool false), (c!"ipv6", .str c!""), (c!"activate", .none), (c!"nodefroute", .bool false), (c!"wpakey", .str c!""), (c!"bondslaves", .str c!""), (c!"bondopts", .str c!""), (c!"vlanid", .str c!""), (c!"ipv6gateway", .str c!""), (c!"teamslaves", .list []), (c!"teamconfig", .str c!""), (c!"interfacename", .str c!""), (c!"bridgeslaves", .str c!"e"), (c!"bridgeopts", .str c!"")]

theorem obeys_networkLines2_2_base (n : Str) : Command.FirstBase (F25_Network.cls F25_NetworkData.cls) n [c!"--device=b", c!"--bridgeslaves=e"] obeys_networkLines2_2_object := by
  intro b b' hb hb' line l; kernel_rfl

theorem obeys_networkLines2_2_start : Command.FirstStart (F25_Network.cls F25_NetworkData.cls) obeys_networkLines2_2_object (networkLines2.start.getD 0 ([], [])).2 := fun _ => .inl ⟨fun _ => rfl, (all_cons (by kernel_rfl) (all_cons (by kernel_rfl) (all_cons (by kernel_rfl) (all_cons (by kernel_rfl) (List.forall_mem_nil _)))))⟩

theorem obeys_networkLines2_2_lines (n : Str) : ∀ i ∈ [1], Command.FirstLine (F25_Network.cls F25_NetworkData.cls) n [c!"--device=b", c!"--bridgeslaves=e"] obeys_networkLines2_2_object (networkLines2.lines.getD i noLine) :=
  (all_cons (by intro b b' hb hb' x hx line l; kernel_rfl)
    (List.forall_mem_nil _))

theorem obeys_networkLines2_2 : ∀ v, [Version.F25, Version.F26].contains v = true → Command.Obeys (F25_Network.cls F25_NetworkData.cls) networkLines2 v :=
  obeys_of obeys_networkLines2_2_object [0] [1] (obeys_networkLines2_2_base _) (all_cons obeys_networkLines2_2_start (List.forall_mem_nil _)) (obeys_networkLines2_2_lines _) (by decide +kernel)

def obeys_networkLines2_3_object (l : Nat) : Ns := [(c!"lineno", .int l), (c!"bootProto", .str c!"dhcp"), (c!"dhcpclass", .str c!""), (c!"device", .str c!"b"), (c!"essid", .str c!""), (c!"ethtool", .str c!""), (c!"gateway", .str c!""), (c!"hostname", .str c!""), (c!"ip", .str c!""), (c!"mtu", .str c!""), (c!"nameserver", .str c!""), (c!"netmask", .str c!""), (c!"nodns", .bool false), (c!"onboot", .bool true), (c!"wepkey", .str c!""), (c!"notksdevice", .bool false), (c!"noipv4", .bool false), (c!"noipv6", .bool false), (c!"ipv6", .str c!""), (c!"activate", .none), (c!"nodefroute", .bool false), (c!"wpakey", .str c!""), (c!"bondslaves", .str c!""), (c!"bondopts", .str c!""), (c!"vlanid", .str c!""), (c!"ipv6gateway", .str c!""), (c!"teamslaves", .list []), (c!"teamconfig", .str c!""), (c!"interfacename", .str c!""), (c!"bridgeslaves", .str c!"e"), (c!"bridgeopts", .str c!""), (c!"bindto", .none)]

theorem obeys_networkLines2_3_base (n : Str) : Command.FirstBase (F27_Network.cls F27_NetworkData.cls) n [c!"--device=b", c!"--bridgeslaves=e"] obeys_networkLines2_3_object := by
  intro b b' hb hb' line l; kernel_rfl

theorem obeys_networkLines2_3_start : Command.FirstStart (F27_Network.cls F27_NetworkData.cls) obeys_networkLines2_3_object (networkLines2.start.getD 0 ([], [])).2 := fun _ => .inl ⟨fun _ => rfl, (all_cons (by kernel_rfl) (all_cons (by kernel_rfl) (all_cons (by kernel_rfl) (all_cons (by kernel_rfl) (List.forall_mem_nil _)))))⟩

theorem obeys_networkLines2_3_lines (n : Str) : ∀ i ∈ [0, 1, 2], Command.FirstLine (F27_Network.cls F27_NetworkData.cls) n [c!"--device=b", c!"--bridgeslaves=e"] obeys_networkLines2_3_object (networkLines2.lines.getD i noLine) :=
  (all_cons (by intro b b' hb hb' x hx line l; kernel_rfl)
    (all_cons (by intro b b' hb hb' x hx line l; kernel_rfl)
    (all_cons (by intro b b' hb hb' x hx line l; kernel_rfl)
    (List.forall_mem_nil _))))

theorem obeys_networkLines2_3 : ∀ v, [Version.F27, Version.F28, Version.RHEL8, Version.F29, Version.F30, Version.F31, Version.F32, Version.F33, Version.F34].contains v = true → Command.Obeys (F27_Network.cls F27_NetworkData.cls) networkLines2 v :=
  obeys_of obeys_networkLines2_3_object [0] [0, 1, 2] (obeys_networkLines2_3_base _) (all_cons obeys_networkLines2_3_start (List.forall_mem_nil _)) (obeys_networkLines2_3_lines _) (by decide +kernel)

def obeys_networkLines2_4_object (l : Nat) : Ns := [(c!"lineno", .int l), (c!"bootProto", .str c!"dhcp"), (c!"dhcpclass", .str c!""), (c!"device", .str c!"b"), (c!"essid", .str c!""), (c!"ethtool", .str c!""), (c!"gateway", .str c!""), (c!"hostname", .str c!""), (c!"ip", .str c!""), (c!"mtu", .str c!""), (c!"nameserver", .str c!""), (c!"netmask", .str c!""), (c!"nodns", .bool false), (c!"onboot", .bool true), (c!"wepkey", .str c!""), (c!"notksdevice", .bool false), (c!"noipv4", .bool false), (c!"noipv6", .bool false), (c!"ipv6", .str c!""), (c!"activate", .none), (c!"nodefroute", .bool false), (c!"wpakey", .str c!""), (c!"bondslaves", .str c!""), (c!"bondopts", .str c!""), (c!"vlanid", .str c!""), (c!"ipv6gateway", .str c!""), (c!"teamslaves", .list []), (c!"teamconfig", .str c!""), (c!"interfacename", .str c!""), (c!"bridgeslaves", .str c!"e"), (c!"bridgeopts", .str c!""), (c!"bindto", .none)]

theorem obeys_networkLines2_4_base (n : Str) : Command.FirstBase (RHEL7_Network.cls RHEL7_NetworkData.cls) n [c!"--device=b", c!"--bridgeslaves=e"] obeys_networkLines2_4_object := by
  intro b b' hb hb' line l; kernel_rfl

theorem obeys_networkLines2_4_start : Command.FirstStart (RHEL7_Network.cls RHEL7_NetworkData.cls) obeys_networkLines2_4_object (networkLines2.start.getD 0 ([], [])).2 := fun _ => .inl ⟨fun _ => rfl, (all_cons (by kernel_rfl) (all_cons (by kernel_rfl) (all_cons (by kernel_rfl) (all_cons (by kernel_rfl) (List.forall_mem_nil _)))))⟩

theorem obeys_networkLines2_4_lines (n : Str) : ∀ i ∈ [0, 1, 2], Command.FirstLine (RHEL7_Network.cls RHEL7_NetworkData.cls) n [c!"--device=b", c!"--bridgeslaves=e"] obeys_networkLines2_4_object (networkLines2.lines.getD i noLine) :=
  (all_cons (by intro b b' hb hb' x hx line l; kernel_rfl)
    (all_cons (by intro b b' hb hb' x hx line l; kernel_rfl)
    (all_cons (by intro b b' hb hb' x hx line l; kernel_rfl)
    (List.forall_mem_nil _))))

theorem obeys_networkLines2_4 : ∀ v, [Version.RHEL7].contains v = true → Command.Obeys (RHEL7_Network.cls RHEL7_NetworkData.cls) networkLines2 v :=
  obeys_of obeys_networkLines2_4_object [0] [0, 1, 2] (obeys_networkLines2_4_base _) (all_cons obeys_networkLines2_4_start (List.forall_mem_nil _)) (obeys_networkLines2_4_lines _) (by decide +kernel)

theorem obeys_networkLines2 : networkLines2.Obeyed := by
  unfold CommandLines.Obeyed commandMaps
  exact (all_cons (fun hv => absurd hv (by decide))
    (all_cons (fun hv => absurd hv (by decide))
    (all_cons (fun hv => absurd hv (by decide))
    (all_cons (fun hv => absurd hv (by decide))
    (all_cons (fun hv => absurd hv (by decide))
    (all_cons (fun hv => absurd hv (by decide))
    (all_cons (fun hv => absurd hv (by decide))
    (all_cons (fun hv => absurd hv (by decide))
    (all_cons (fun hv => absurd hv (by decide))
    (all_cons (fun hv => absurd hv (by decide))
    (all_cons (fun hv => absurd hv (by decide))
    (all_cons (fun hv => absurd hv (by decide))
    (all_cons (fun _ c h => by cases h; exact obeys_networkLines2_0 _ rfl)
    (all_cons (fun _ c h => by cases h; exact obeys_networkLines2_0 _ rfl)
    (all_cons (fun _ c h => by cases h; exact obeys_networkLines2_1 _ rfl)
    (all_cons (fun _ c h => by cases h; exact obeys_networkLines2_2 _ rfl)
    (all_cons (fun _ c h => by cases h; exact obeys_networkLines2_2 _ rfl)
    (all_cons (fun _ c h => by cases h; exact obeys_networkLines2_3 _ rfl)
    (all_cons (fun _ c h => by cases h; exact obeys_networkLines2_3 _ rfl)
    (all_cons (fun _ c h => by cases h; exact obeys_networkLines2_3 _ rfl)
    (all_cons (fun _ c h => by cases h; exact obeys_networkLines2_3 _ rfl)
    (all_cons (fun _ c h => by cases h; exact obeys_networkLines2_3 _ rfl)
    (all_cons (fun _ c h => by cases h; exact obeys_networkLines2_3 _ rfl)
    (all_cons (fun _ c h => by cases h; exact obeys_networkLines2_3 _ rfl)
    (all_cons (fun _ c h => by cases h; exact obeys_networkLines2_3 _ rfl)
    (all_cons (fun hv => absurd hv (by decide))
    (all_cons (fun hv => absurd hv (by decide))
    (all_cons (fun hv => absurd hv (by decide))
    (all_cons (fun hv => absurd hv (by decide))
    (all_cons (fun hv => absurd hv (by decide))
    (all_cons (fun hv => absurd hv (by decide))
    (all_cons (fun hv => absurd hv (by decide))
    (all_cons (fun hv => absurd hv (by decide))
    (all_cons (fun hv => absurd hv (by decide))
    (all_cons (fun hv => absurd hv (by decide))
    (all_cons (fun hv => absurd hv (by decide))
    (all_cons (fun _ c h => by cases h; exact obeys_networkLines2_4 _ rfl)
    (all_cons (fun _ c h => by cases h; exact obeys_networkLines2_3 _ rfl) (List.forall_mem_nil _)))))))))))))))))))))))))))))))))))))))

def obeys_networkLines3_0_object (l : Nat) : Ns := [(c!"lineno", .int l), (c!"bootProto", .str c!"static"), (c!"dhcpclass", .str c!""), (c!"device", .str c!""), (c!"essid", .str c!""), (c!"ethtool", .str c!""), (c!"gateway", .str c!""), (c!"hostname", .str c!""), (c!"ip", .str c!"i"), (c!"mtu", .str c!""), (c!"nameserver", .str c!""), (c!"netmask", .str c!""), (c!"nodns", .bool false), (c!"onboot", .bool true), (c!"wepkey", .str c!""), (c!"notksdevice", .bool false), (c!"noipv4", .bool false), (c!"noipv6", .bool false), (c!"ipv6", .str c!"")]

theorem obeys_networkLines3_0_base (n : Str) : Command.FirstBase (F9_Network.cls F8_NetworkData.cls) n [c!"--bootproto=static", c!"--ip=i"] obeys_networkLines3_0_object := by
  intro b b' hb hb' line l; kernel_rfl

theorem obeys_networkLines3_0_start : Command.FirstStart (F9_Network.cls F8_NetworkData.cls) obeys_networkLines3_0_object (networkLines3.start.getD 0 ([], [])).2 := fun _ => .inl ⟨fun _ => rfl, (all_cons (by kernel_rfl) (all_cons (by kernel_rfl) (all_cons (by kernel_rfl) (List.forall_mem_nil _))))⟩

theorem obeys_networkLines3_0_lines (n : Str) : ∀ i ∈ [], Command.FirstLine (F9_Network.cls F8_NetworkData.cls) n [c!"--bootproto=static", c!"--ip=i"] obeys_networkLines3_0_object (networkLines3.lines.getD i noLine) :=
  (List.forall_mem_nil _)

theorem obeys_networkLines3_0 : ∀ v, [Version.F9, Version.F10, Version.F11, Version.F12, Version.F13, Version.F14, Version.F15].contains v = true → Command.Obeys (F9_Network.cls F8_NetworkData.cls) networkLines3 v :=
  obeys_of obeys_networkLines3_0_object [0] [] (obeys_networkLines3_0_base _) (all_cons obeys_networkLines3_0_start (List.forall_mem_nil _)) (obeys_networkLines3_0_lines _) (by decide +kernel)

def obeys_networkLines3_1_object (l : Nat) : Ns := [(c!"lineno", .int l), (c!"bootProto", .str c!"static"), (c!"dhcpclass", .str c!""), (c!"device", .str c!""), (c!"essid", .str c!""), (c!"ethtool", .str c!""), (c!"gateway", .str c!""), (c!"hostname", .str c!""), (c!"ip", .str c!"i"), (c!"mtu", .str c!""), (c!"nameserver", .str c!""), (c!"netmask", .str c!""), (c!"nodns", .bool false), (c!"onboot", .bool true), (c!"wepkey", .str c!""), (c!"notksdevice", .bool false), (c!"noipv4", .bool false), (c!"noipv6", .bool false), (c!"ipv6", .str c!""), (c!"activate", .none), (c!"nodefroute", .bool false), (c!"wpakey", .str c!"")]

theorem obeys_networkLines3_1_base (n : Str) : Command.FirstBase (F16_Network.cls F16_NetworkData.cls) n [c!"--bootproto=static", c!"--ip=i"] obeys_networkLines3_1_object := by
  intro b b' hb hb' line l; kernel_rfl

theorem obeys_networkLines3_1_start : Command.FirstStart (F16_Network.cls F16_NetworkData.cls) obeys_networkLines3_1_object (networkLines3.start.getD 0 ([], [])).2 := fun _ => .inl ⟨fun _ => rfl, (all_cons (by kernel_rfl) (all_cons (by kernel_rfl) (all_cons (by kernel_rfl) (List.forall_mem_nil _))))⟩

theorem obeys_networkLines3_1_lines (n : Str) : ∀ i ∈ [], Command.FirstLine (F16_Network.cls F16_NetworkData.cls) n [c!"--bootproto=static", c!"--ip=i"] obeys_networkLines3_1_object (networkLines3.lines.getD i noLine) :=
  (List.forall_mem_nil _)

theorem obeys_networkLines3_1 : ∀ v, [Version.F16, Version.F17].contains v = true → Command.Obeys (F16_Network.cls F16_NetworkData.cls) networkLines3 v :=
  obeys_of obeys_networkLines3_1_object [0] [] (obeys_networkLines3_1_base _) (all_cons obeys_networkLines3_1_start (List.forall_mem_nil _)) (obeys_networkLines3_1_lines _) (by decide +kernel)

def obeys_networkLines3_2_object (l : Nat) : Ns := [(c!"lineno", .int l), (c!"bootProto", .str c!"static"), (c!"dhcpclass", .str c!""), (c!"device", .str c!""), (c!"essid", .str c!""), (c!"ethtool", .str c!""), (c!"gateway", .str c!""), (c!"hostname", .str c!""), (c!"ip", .str c!"i"), (c!"mtu", .str c!""), (c!"nameserver", .str c!""), (c!"netmask", .str c!""), (c!"nodns", .bool false), (c!"onboot", .bool true), (c!"wepkey", .str c!""), (c!"notksdevice", .bool false), (c!"noipv4", .bool false), (c!"noipv6", .bool false), (c!"ipv6", .str c!""), (c!"activate", .none), (c!"nodefroute", .bool false), (c!"wpakey", .str c!"")]

theorem obeys_networkLines3_2_base (n : Str) : Command.FirstBase (F18_Network.cls F16_NetworkData.cls) n [c!"--bootproto=static", c!"--ip=i"] obeys_networkLines3_2_object := by
  intro b b' hb hb' line l; kernel_rfl

theorem obeys_networkLines3_2_start : Command.FirstStart (F18_Network.cls F16_NetworkData.cls) obeys_networkLines3_2_object (networkLines3.start.getD 0 ([], [])).2 := fun _ => .inl ⟨fun _ => rfl, (all_cons (by kernel_rfl) (all_cons (by kernel_rfl) (all_cons (by kernel_rfl) (List.forall_mem_nil _))))⟩

theorem obeys_networkLines3_2_lines (n : Str) : ∀ i ∈ [], Command.FirstLine (F18_Network.cls F16_NetworkData.cls) n [c!"--bootproto=static", c!"--ip=i"] obeys_networkLines3_2_object (networkLines3.lines.getD i noLine) :=
  (List.forall_mem_nil _)

theorem obeys_networkLines3_2 : ∀ v, [Version.F18].contains v = true → Command.Obeys (F18_Network.cls F16_NetworkData.cls) networkLines3 v :=
  obeys_of obeys_networkLines3_2_object [0] [] (obeys_networkLines3_2_base _) (all_cons obeys_networkLines3_2_start (List.forall_mem_nil _)) (obeys_networkLines3_2_lines _) (by decide +kernel)

def obeys_networkLines3_3_object (l : Nat) : Ns := [(c!"lineno", .int l), (c!"bootProto", .str c!"static"), (c!"dhcpclass", .str c!""), (c!"device", .str c!""), (c!"essid", .str c!""), (c!"ethtool", .str c!""), (c!"gateway", .str c!""), (c!"hostname", .str c!""), (c!"ip", .str c!"i"), (c!"mtu", .str c!""), (c!"nameserver", .str c!""), (c!"netmask", .str c!""), (c!"nodns", .bool false), (c!"onboot", .bool true), (c!"wepkey", .str c!""), (c!"notksdevice", .bool false), (c!"noipv4", .bool false), (c!"noipv6", .bool false), (c!"ipv6", .str c!""), (c!"activate", .none), (c!"nodefroute", .bool false), (c!"wpakey", .str c!""), (c!"bondslaves", .str c!""), (c!"bondopts", .str c!""), (c!"vlanid", .str c!""), (c!"ipv6gateway", .str c!"")]

theorem obeys_networkLines3_3_base (n : Str) : Command.FirstBase (F19_Network.cls F19_NetworkData.cls) n [c!"--bootproto=static", c!"--ip=i"] obeys_networkLines3_3_object := by
  intro b b' hb hb' line l; kernel_rfl

theorem obeys_networkLines3_3_start : Command.FirstStart (F19_Network.cls F19_NetworkData.cls) obeys_networkLines3_3_object (networkLines3.start.getD 0 ([], [])).2 := fun _ => .inl ⟨fun _ => rfl, (all_cons (by kernel_rfl) (all_cons (by kernel_rfl) (all_cons (by kernel_rfl) (List.forall_mem_nil _))))⟩

theorem obeys_networkLines3_3_lines (n : Str) : ∀ i ∈ [], Command.FirstLine (F19_Network.cls F19_NetworkData.cls) n [c!"--bootproto=static", c!"--ip=i"] obeys_networkLines3_3_object (networkLines3.lines.getD i noLine) :=
  (List.forall_mem_nil _)

theorem obeys_networkLines3_3 : ∀ v, [Version.F19].contains v = true → Command.Obeys (F19_Network.cls F19_NetworkData.cls) networkLines3 v :=
  obeys_of obeys_networkLines3_3_object [0] [] (obeys_networkLines3_3_base _) (all_cons obeys_networkLines3_3_start (List.forall_mem_nil _)) (obeys_networkLines3_3_lines _) (by decide +kernel)

def obeys_networkLines3_4_object (l : Nat) : Ns := [(c!"lineno", .int l), (c!"bootProto", .str c!"static"), (c!"dhcpclass", .str c!""), (c!"device", .str c!""), (c!"essid", .str c!""), (c!"ethtool", .str c!""), (c!"gateway", .str c!""), (c!"hostname", .str c!""), (c!"ip", .str c!"i"), (c!"mtu", .str c!""), (c!"nameserver", .str c!""), (c!"netmask", .str c!""), (c!"nodns", .bool false), (c!"onboot", .bool true), (c!"wepkey", .str c!""), (c!"notksdevice", .bool false), (c!"noipv4", .bool false), (c!"noipv6", .bool false), (c!"ipv6", .str c!""), (c!"activate", .none), (c!"nodefroute", .bool false), (c!"wpakey", .str c!""), (c!"bondslaves", .str c!""), (c!"bondopts", .str c!""), (c!"vlanid", .str c!""), (c!"ipv6gateway", .str c!""), (c!"teamslaves", .list []), (c!"teamconfig", .str c!"")]

theorem obeys_networkLines3_4_base (n : Str) : Command.FirstBase (F20_Network.cls F20_NetworkData.cls) n [c!"--bootproto=static", c!"--ip=i"] obeys_networkLines3_4_object := by
  intro b b' hb hb' line l; kernel_rfl

theorem obeys_networkLines3_4_start : Command.FirstStart (F20_Network.cls F20_NetworkData.cls) obeys_networkLines3_4_object (networkLines3.start.getD 0 ([], [])).2 := fun _ => .inl ⟨fun _ => rfl, (all_cons (by kernel_rfl) (all_cons (by kernel_rfl) (all_cons (by kernel_rfl) (List.forall_mem_nil _))))⟩

theorem obeys_networkLines3_4_lines (n : Str) : ∀ i ∈ [], Command.FirstLine (F20_Network.cls F20_NetworkData.cls) n [c!"--bootproto=static", c!"--ip=i"] obeys_networkLines3_4_object (networkLines3.lines.getD i noLine) :=
  (List.forall_mem_nil _)

theorem obeys_networkLines3_4 : ∀ v, [Version.F20].contains v = true → Command.Obeys (F20_Network.cls F20_NetworkData.cls) networkLines3 v :=
  obeys_of obeys_networkLines3_4_object [0] [] (obeys_networkLines3_4_base _) (all_cons obeys_networkLines3_4_start (List.forall_mem_nil _)) (obeys_networkLines3_4_lines _) (by decide +kernel)

def obeys_networkLines3_5_object (l : Nat) : Ns := [(c!"lineno", .int l), (c!"bootProto", .str c!"static"), (c!"dhcpclass", .str c!""), (c!"device", .str c!""), (c!"essid", .str c!""), (c!"ethtool", .str c!""), (c!"gateway", .str c!""), (c!"hostname", .str c!""), (c!"ip", .str c!"i"), (c!"mtu", .str c!""), (c!"nameserver", .str c!""), (c!"netmask", .str c!""), (c!"nodns", .bool false), (c!"onboot", .bool true), (c!"wepkey", .str c!""), (c!"notksdevice", .bool false), (c!"noipv4", .bool false), (c!"noipv6", .bool false), (c!"ipv6", .str c!""), (c!"activate", .none), (c!"nodefroute", .bool false), (c!"wpakey", .str c!""), (c!"bondslaves", .str c!""), (c!"bondopts", .str c!""), (c!"vlanid", .str c!""), (c!"ipv6gateway", .str c!""), (c!"teamslaves", .list []), (c!"teamconfig", .str c!""), (c!"interfacename", .str c!"")]

theorem obeys_networkLines3_5_base (n : Str) : Command.FirstBase (F21_Network.cls F21_NetworkData.cls) n [c!"--bootproto=static", c!"--ip=i"] obeys_networkLines3_5_object := by
  intro b b' hb hb' line l; kernel_rfl

theorem obeys_networkLines3_5_start : Command.FirstStart (F21_Network.cls F21_NetworkData.cls) obeys_networkLines3_5_object (networkLines3.start.getD 0 ([], [])).2 := fun _ => .inl ⟨fun _ => rfl, (all_cons (by kernel_rfl) (all_cons (by kernel_rfl) (all_cons (by kernel_rfl) (List.forall_mem_nil _))))⟩

theorem obeys_networkLines3_5_lines (n : Str) : ∀ i ∈ [], Command.FirstLine (F21_Network.cls F21_NetworkData.cls) n [c!"--bootproto=static", c!"--ip=i"] obeys_networkLines3_5_object (networkLines3.lines.getD i noLine) :=
  (List.forall_mem_nil _)

theorem obeys_networkLines3_5 : ∀ v, [Version.F21].contains v = true → Command.Obeys (F21_Network.cls F21_NetworkData.cls) networkLines3 v :=
  obeys_of obeys_networkLines3_5_object [0] [] (obeys_networkLines3_5_base _) (all_cons obeys_networkLines3_5_start (List.forall_mem_nil _)) (obeys_networkLines3_5_lines _) (by decide +kernel)

def obeys_networkLines3_6_object (l : Nat) : Ns := [(c!"lineno", .int l), (c!"bootProto", .str c!"static"), (c!"dhcpclass", .str c!""), (c!"device", .str c!""), (c!"essid", .str c!""), (c!"ethtool", .str c!""), (c!"gateway", .str c!""), (c!"hostname", .str c!""), (c!"ip", .str c!"i"), (c!"mtu", .str c!""), (c!"nameserver", .str c!""), (c!"netmask", .str c!""), (c!"nodns", .bool false), (c!"onboot", .bool true), (c!"wepkey", .str c!""), (c!"notksdevice", .bool false), (c!"noipv4", .bool false), (c!"noipv6", .bool false), (c!"ipv6", .str c!""), (c!"activate", .none), (c!"nodefroute", .bool false), (c!"wpakey", .str c!""), (c!"bondslaves", .str c!""), (c!"bondopts", .str c!""), (c!"vlanid", .str c!""), (c!"ipv6gateway", .str c!""), (c!"teamslaves", .list []), (c!"teamconfig", .str c!""), (c!"interfacename", .str c!""), (c!"bridgeslaves", .str c!""), (c!"bridgeopts", .str c!"")]

theorem obeys_networkLines3_6_base (n : Str) : Command.FirstBase (F22_Network.cls F22_NetworkData.cls) n [c!"--bootproto=static", c!"--ip=i"] obeys_networkLines3_6_object := by
  intro b b' hb hb' line l; kernel_rfl

theorem obeys_networkLines3_6_start : Command.FirstStart (F22_Network.cls F22_NetworkData.cls) obeys_networkLines3_6_object (networkLines3.start.getD 0 ([], [])).2 := fun _ => .inl ⟨fun _ => rfl, (all_cons (by kernel_rfl) (all_cons (by kernel_rfl) (all_cons (by kernel_rfl) (List.forall_mem_nil _))))⟩

theorem obeys_networkLines3_6_lines (n : Str) : ∀ i ∈ [], Command.FirstLine (F22_Network.cls F22_NetworkData.cls) n [c!"--bootproto=static", c!"--ip=i"] obeys_networkLines3_6_object (networkLines3.lines.getD i noLine) :=
  (List.forall_mem_nil _)

theorem obeys_networkLines3_6 : ∀ v, [Version.F22, Version.F23].contains v = true → Command.Obeys (F22_Network.cls F22_NetworkData.cls) networkLines3 v :=
  obeys_of obeys_networkLines3_6_object [0] [] (obeys_networkLines3_6_base _) (all_cons obeys_networkLines3_6_start (List.forall_mem_nil _)) (obeys_networkLines3_6_lines _) (by decide +kernel)

def obeys_networkLines3_7_object (l : Nat) : Ns := [(c!"lineno", .int l), (c!"bootProto", .str c!"static"), (c!"dhcpclass", .str c!""), (c!"device", .str c!""), (c!"essid", .str c!""), (c!"ethtool", .str c!""), (c!"gateway", .str c!""), (c!"hostname", .str c!""), (c!"ip", .str c!"i"), (c!"mtu", .str c!""), (c!"nameserver", .str c!""), (c!"netmask", .str c!""), (c!"nodns", .bool false), (c!"onboot", .bool true), (c!"wepkey", .str c!""), (c!"notksdevice", .bool false), (c!"noipv4", .bool false), (c!"noipv6", .bool false), (c!"ipv6", .str c!""), (c!"activate", .none), (c!"nodefroute", .bool false), (c!"wpakey", .str c!""), (c!"bondslaves", .str c!""), (c!"bondopts", .str c!""), (c!"vlanid", .str c!""), (c!"ipv6gateway", .str c!""), (c!"teamslaves", .list []), (c!"teamconfig", .str c!""), (c!"interfacename", .str c!""), (c!"bridgeslaves", .str c!""), (c!"bridgeopts", .str c!"")]

theorem obeys_networkLines3_7_base (n : Str) : Command.FirstBase (F24_Network.cls F22_NetworkData.cls) n [c!"--bootproto=static", c!"--ip=i"] obeys_networkLines3_7_object := by
  intro b b' hb hb' line l; kernel_rfl

theorem obeys_networkLines3_7_start : Command.FirstStart (F24_Network.cls F22_NetworkData.cls) obeys_networkLines3_7_object (networkLines3.start.getD 0 ([], [])).2 := fun _ => .inl ⟨fun _ => rfl, (all_cons (by kernel_rfl) (all_cons (by kernel_rfl) (all_cons (by kernel_rfl) (List.forall_mem_nil _))))⟩

theorem obeys_networkLines3_7_lines (n : Str) : ∀ i ∈ [], Command.FirstLine (F24_Network.cls F22_NetworkData.cls) n [c!"--bootproto=static", c!"--ip=i"] obeys_networkLines3_7_object (networkLines3.lines.getD i noLine) :=
  (List.forall_mem_nil _)

theorem obeys_networkLines3_7 : ∀ v, [Version.F24].contains v = true → Command.Obeys (F24_Network.cls F22_NetworkData.cls) networkLines3 v :=
  obeys_of obeys_networkLines3_7_object [0] [] (obeys_networkLines3_7_base _) (all_cons obeys_networkLines3_7_start (List.forall_mem_nil _)) (obeys_networkLines3_7_lines _) (by decide +kernel)

def obeys_networkLines3_8_object (l : Nat) : Ns := [(c!"lineno", .int l), (c!"bootProto", .str c!"static"), (c!"dhcpclass", .str c!""), (c!"device", .str c!""), (c!"essid", .str c!""), (c!"ethtool", .str c!""), (c!"gateway", .str c!""), (c!"hostname", .str c!""), (c!"ip", .str c!"i"), (c!"mtu", .str c!""), (c!"nameserver", .str c!""), (c!"netmask", .str c!""), (c!"nodns", .bool false), (c!"onboot", .bool true), (c!"wepkey", .str c!""), (c!"notksdevice", .bool false), (c!"noipv4", .bool false), (c!"noipv6", .bool false), (c!"ipv6", .str c!""), (c!"activate", .none), (c!"nodefroute", .bool false), (c!"wpakey", .str c!""), (c!"bondslaves", .str c!""), (c!"bondopts", .str c!""), (c!"vlanid", .str c!""), (c!"ipv6gateway", .str c!""), (c!"teamslaves", .list []), (c!"teamconfig", .str c!""), (c!"interfacename", .str c!""), (c!"bridgeslaves", .str c!""), (c!"bridgeopts", .str c!"")]

theorem obeys_networkLines3_8_base (n : Str) : Command.FirstBase (F25_Network.cls F25_NetworkData.cls) n [c!"--bootproto=static", c!"--ip=i"] obeys_networkLines3_8_object := by
  intro b b' hb hb' line l; kernel_rfl

theorem obeys_networkLines3_8_start : Command.FirstStart (F25_Network.cls F25_NetworkData.cls) obeys_networkLines3_8_object (networkLines3.start.getD 0 ([], [])).2 := fun _ => .inl ⟨fun _ => rfl, (all_cons (by kernel_rfl) (all_cons (by kernel_rfl) (all_cons (by kernel_rfl) (List.forall_mem_nil _))))⟩

theorem obeys_networkLines3_8_lines (n : Str) : ∀ i ∈ [], Command.FirstLine (F25_Network.cls F25_NetworkData.cls) n [c!"--bootproto=static", c!"--ip=i"] obeys_networkLines3_8_object (networkLines3.lines.getD i noLine) :=
  (List.forall_mem_nil _)

theorem obeys_networkLines3_8 : ∀ v, [Version.F25, Version.F26].contains v = true → Command.Obeys (F25_Network.cls F25_NetworkData.cls) networkLines3 v :=
  obeys_of obeys_networkLines3_8_object [0] [] (obeys_networkLines3_8_base _) (all_cons obeys_networkLines3_8_start (List.forall_mem_nil _)) (obeys_networkLines3_8_lines _) (by decide +kernel)

def obeys_networkLines3_9_object (l : Nat) : Ns := [(c!"lineno", .int l), (c!"bootProto", .str c!"static"), (c!"dhcpclass", .str c!""), (c!"device", .str c!""), (c!"essid", .str c!""), (c!"ethtool", .str c!""), (c!"gateway", .str c!""), (c!"hostname", .str c!""), (c!"ip", .str c!"i"), (c!"mtu", .str c!""), (c!"nameserver", .str c!""), (c!"netmask", .str c!""), (c!"nodns", .bool false), (c!"onboot", .bool true), (c!"wepkey", .str c!""), (c!"notksdevice", .bool false), (c!"noipv4", .bool false), (c!"noipv6", .bool false), (c!"ipv6", .str c!""), (c!"activate", .none), (c!"nodefroute", .bool false), (c!"wpakey", .str c!""), (c!"bondslaves", .str c!""), (c!"bondopts", .str c!""), (c!"vlanid", .str c!""), (c!"ipv6gateway", .str c!""), (c!"teamslaves", .list []), (c!"teamconfig", .str c!""), (c!"interfacename", .str c!""), (c!"bridgeslaves", .str c!""), (c!"bridgeopts", .str c!""), (c!"bindto", .none)]

theorem obeys_networkLines3_9_base (n : Str) : Command.FirstBase (F27_Network.cls F27_NetworkData.cls) n [c!"--bootproto=static", c!"--ip=i"] obeys_networkLines3_9_object := by
  intro b b' hb hb' line l; kernel_rfl

theorem obeys_networkLines3_9_start : Command.FirstStart (F27_Network.cls F27_NetworkData.cls) obeys_networkLines3_9_object (networkLines3.start.getD 0 ([], [])).2 := fun _ => .inl ⟨fun _ => rfl, (all_cons (by kernel_rfl) (all_cons (by kernel_rfl) (all_cons (by kernel_rfl) (List.forall_mem_nil _))))⟩

theorem obeys_networkLines3_9_lines (n : Str) : ∀ i ∈ [0, 1], Command.FirstLine (F27_Network.cls F27_NetworkData.cls) n [c!"--bootproto=static", c!"--ip=i"] obeys_networkLines3_9_object (networkLines3.lines.getD i noLine) :=
  (all_cons (by intro b b' hb hb' x hx line l; (cases x with | nil => exact absurd rfl hx | cons a x => kernel_rfl))
    (all_cons (by intro b b' hb hb' x hx line l; (cases x with | nil => exact absurd rfl hx | cons a x => kernel_rfl))
    (List.forall_mem_nil _)))

theorem obeys_networkLines3_9 : ∀ v, [Version.F27, Version.F28, Version.RHEL8, Version.F29, Version.F30, Version.F31, Version.F32, Version.F33, Version.F34].contains v = true → Command.Obeys (F27_Network.cls F27_NetworkData.cls) networkLines3 v :=
  obeys_of obeys_networkLines3_9_object [0] [0, 1] (obeys_networkLines3_9_base _) (all_cons obeys_networkLines3_9_start (List.forall_mem_nil _)) (obeys_networkLines3_9_lines _) (by decide +kernel)

def obeys_networkLines3_10_object (l : Nat) : Ns := [(c!"lineno", .int l), (c!"bootProto", .str c!"static"), (c!"dhcpclass", .str c!""), (c!"device", .str c!""), (c!"essid", .str c!""), (c!"ethtool", .str c!""), (c!"gateway", .str c!""), (c!"hostname", .str c!""), (c!"ip", .str c!"i"), (c!"mtu", .str c!""), (c!"nameserver", .str c!""), (c!"netmask", .str c!""), (c!"nodns", .bool false), (c!"onboot", .bool true), (c!"wepkey", .str c!""), (c!"notksdevice", .bool false), (c!"noipv4", .bool false), (c!"noipv6", .bool false)]

theorem obeys_networkLines3_10_base (n : Str) : Command.FirstBase (FC6_Network.cls FC6_NetworkData.cls) n [c!"--bootproto=static", c!"--ip=i"] obeys_networkLines3_10_object := by
  intro b b' hb hb' line l; kernel_rfl

theorem obeys_networkLines3_10_start : Command.FirstStart (FC6_Network.cls FC6_NetworkData.cls) obeys_networkLines3_10_object (networkLines3.start.getD 0 ([], [])).2 := fun _ => .inl ⟨fun _ => rfl, (all_cons (by kernel_rfl) (all_cons (by kernel_rfl) (all_cons (by kernel_rfl) (List.forall_mem_nil _))))⟩

theorem obeys_networkLines3_10_lines (n : Str) : ∀ i ∈ [], Command.FirstLine (FC6_Network.cls FC6_NetworkData.cls) n [c!"--bootproto=static", c!"--ip=i"] obeys_networkLines3_10_object (networkLines3.lines.getD i noLine) :=
  (List.forall_mem_nil _)

theorem obeys_networkLines3_10 : ∀ v, [Version.FC6, Version.F7].contains v = true → Command.Obeys (FC6_Network.cls FC6_NetworkData.cls) networkLines3 v :=
  obeys_of obeys_networkLines3_10_object [0] [] (obeys_networkLines3_10_base _) (all_cons obeys_networkLines3_10_start (List.forall_mem_nil _)) (obeys_networkLines3_10_lines _) (by decide +kernel)

def obeys_networkLines3_11_object (l : Nat) : Ns := [(c!"lineno", .int l), (c!"bootProto", .str c!"static"), (c!"dhcpclass", .str c!""), (c!"device", .str c!""), (c!"essid", .str c!""), (c!"ethtool", .str c!""), (c!"gateway", .str c!""), (c!"hostname", .str c!""), (c!"ip", .str c!"i"), (c!"mtu", .str c!""), (c!"nameserver", .str c!""), (c!"netmask", .str c!""), (c!"nodns", .bool false), (c!"onboot", .bool true), (c!"wepkey", .str c!""), (c!"notksdevice", .bool false), (c!"noipv4", .bool false), (c!"noipv6", .bool false), (c!"ipv6", .str c!"")]

theorem obeys_networkLines3_11_base (n : Str) : Command.FirstBase (F8_Network.cls F8_NetworkData.cls) n [c!"--bootproto=static", c!"--ip=i"] obeys_networkLines3_11_object := by
  intro b b' hb hb' line l; kernel_rfl

theorem obeys_networkLines3_11_start : Command.FirstStart (F8_Network.cls F8_NetworkData.cls) obeys_networkLines3_11_object (networkLines3.start.getD 0 ([], [])).2 := fun _ => .inl ⟨fun _ => rfl, (all_cons (by kernel_rfl) (all_cons (by kernel_rfl) (all_cons (by kernel_rfl) (List.forall_mem_nil _))))⟩

theorem obeys_networkLines3_11_lines (n : Str) : ∀ i ∈ [], Command.FirstLine (F8_Network.cls F8_NetworkData.cls) n [c!"--bootproto=static", c!"--ip=i"] obeys_networkLines3_11_object (networkLines3.lines.getD i noLine) :=
  (List.forall_mem_nil _)

theorem obeys_networkLines3_11 : ∀ v, [Version.F8].contains v = true → Command.Obeys (F8_Network.cls F8_NetworkData.cls) networkLines3 v :=
  obeys_of obeys_networkLines3_11_object [0] [] (obeys_networkLines3_11_base _) (all_cons obeys_networkLines3_11_start (List.forall_mem_nil _)) (obeys_networkLines3_11_lines _) (by decide +kernel)

def obeys_networkLines3_12_object (l : Nat) : Ns := [(c!"lineno", .int l), (c!"bootProto", .str c!"static"), (c!"dhcpclass", .str c!""), (c!"device", .str c!""), (c!"essid", .str c!""), (c!"ethtool", .str c!""), (c!"gateway", .str c!""), (c!"hostname", .str c!""), (c!"ip", .str c!"i"), (c!"mtu", .str c!""), (c!"nameserver", .str c!""), (c!"netmask", .str c!""), (c!"nodns", .bool false), (c!"onboot", .bool true), (c!"wepkey", .str c!"")]

theorem obeys_networkLines3_12_base (n : Str) : Command.FirstBase (FC3_Network.cls FC3_NetworkData.cls) n [c!"--bootproto=static", c!"--ip=i"] obeys_networkLines3_12_object := by
  intro b b' hb hb' line l; kernel_rfl

theorem obeys_networkLines3_12_start : Command.FirstStart (FC3_Network.cls FC3_NetworkData.cls) obeys_networkLines3_12_object (networkLines3.start.getD 0 ([], [])).2 := fun _ => .inl ⟨fun _ => rfl, (all_cons (by kernel_rfl) (all_cons (by kernel_rfl) (all_cons (by kernel_rfl) (List.forall_mem_nil _))))⟩

theorem obeys_networkLines3_12_lines (n : Str) : ∀ i ∈ [], Command.FirstLine (FC3_Network.cls FC3_NetworkData.cls) n [c!"--bootproto=static", c!"--ip=i"] obeys_networkLines3_12_object (networkLines3.lines.getD i noLine) :=
  (List.forall_mem_nil _)

theorem obeys_networkLines3_12 : ∀ v, [Version.FC3].contains v = true → Command.Obeys (FC3_Network.cls FC3_NetworkData.cls) networkLines3 v :=
  obeys_of obeys_networkLines3_12_object [0] [] (obeys_networkLines3_12_base _) (all_cons obeys_networkLines3_12_start (List.forall_mem_nil _)) (obeys_networkLines3_12_lines _) (by decide +kernel)

def obeys_networkLines3_13_object (l : Nat) : Ns := [(c!"lineno", .int l), (c!"bootProto", .str c!"static"), (c!"dhcpclass", .str c!""), (c!"device", .str c!""), (c!"essid", .str c!""), (c!"ethtool", .str c!""), (c!"gateway", .str c!""), (c!"hostname", .str c!""), (c!"ip", .str c!"i"), (c!"mtu", .str c!""), (c!"nameserver", .str c!""), (c!"netmask", .str c!""), (c!"nodns", .bool false), (c!"onboot", .bool true), (c!"wepkey", .str c!""), (c!"notksdevice", .bool false)]

theorem obeys_networkLines3_13_base (n : Str) : Command.FirstBase (FC4_Network.cls FC4_NetworkData.cls) n [c!"--bootproto=static", c!"--ip=i"] obeys_networkLines3_13_object := by
  intro b b' hb hb' line l; kernel_rfl

theorem obeys_networkLines3_13_start : Command.FirstStart (FC4_Network.cls FC4_NetworkData.cls) obeys_networkLines3_13_object (networkLines3.start.getD 0 ([], [])).2 := fun _ => .inl ⟨fun _ => rfl, (all_cons (by kernel_rfl) (all_cons (by kernel_rfl) (all_cons (by kernel_rfl) (List.forall_mem_nil _))))⟩

theorem obeys_networkLines3_13_lines (n : Str) : ∀ i ∈ [], Command.FirstLine (FC4_Network.cls FC4_NetworkData.cls) n [c!"--bootproto=static", c!"--ip=i"] obeys_networkLines3_13_object (networkLines3.lines.getD i noLine) :=
  (List.forall_mem_nil _)

theorem obeys_networkLines3_13 : ∀ v, [Version.FC4, Version.FC5].contains v = true → Command.Obeys (FC4_Network.cls FC4_NetworkData.cls) networkLines3 v :=
  obeys_of obeys_networkLines3_13_object [0] [] (obeys_networkLines3_13_base _) (all_cons obeys_networkLines3_13_start (List.forall_mem_nil _)) (obeys_networkLines3_13_lines _) (by decide +kernel)

def obeys_networkLines3_14_object (l : Nat) : Ns := [(c!"lineno", .int l), (c!"bootProto", .str c!"static"), (c!"dhcpclass", .str c!""), (c!"device", .str c!""), (c!"essid", .str c!""), (c!"ethtool", .str c!""), (c!"gateway", .str c!""), (c!"hostname", .str c!""), (c!"ip", .str c!"i"), (c!"mtu", .str c!""), (c!"nameserver", .str c!""), (c!"netmask", .str c!""), (c!"nodns", .bool false), (c!"onboot", .bool true), (c!"wepkey", .str c!""), (c!"notksdevice", .bool false)]

theorem obeys_networkLines3_14_base (n : Str) : Command.FirstBase (FC3_Network.cls RHEL4_NetworkData.cls) n [c!"--bootproto=static", c!"--ip=i"] obeys_networkLines3_14_object := by
  intro b b' hb hb' line l; kernel_rfl

theorem obeys_networkLines3_14_start : Command.FirstStart (FC3_Network.cls RHEL4_NetworkData.cls) obeys_networkLines3_14_object (networkLines3.start.getD 0 ([], [])).2 := fun _ => .inl ⟨fun _ => rfl, (all_cons (by kernel_rfl) (all_cons (by kernel_rfl) (all_cons (by kernel_rfl) (List.forall_mem_nil _))))⟩

theorem obeys_networkLines3_14_lines (n : Str) : ∀ i ∈ [0, 1], Command.FirstLine (FC3_Network.cls RHEL4_NetworkData.cls) n [c!"--bootproto=static", c!"--ip=i"] obeys_networkLines3_14_object (networkLines3.lines.getD i noLine) :=
  (all_cons (by intro b b' hb hb' x hx line l; (cases x with | nil => exact absurd rfl hx | cons a x => kernel_rfl))
    (all_cons (by intro b b' hb hb' x hx line l; (cases x with | nil => exact absurd rfl hx | cons a x => kernel_rfl))
    (List.forall_mem_nil _)))

theorem obeys_networkLines3_14 : ∀ v, [Version.RHEL3].contains v = true → Command.Obeys (FC3_Network.cls RHEL4_NetworkData.cls) networkLines3 v :=
  obeys_of obeys_networkLines3_14_object [0] [0, 1] (obeys_networkLines3_14_base _) (all_cons obeys_networkLines3_14_start (List.forall_mem_nil _)) (obeys_networkLines3_14_lines _) (by decide +kernel)

def obeys_networkLines3_15_object (l : Nat) : Ns := [(c!"lineno", .int l), (c!"bootProto", .str c!"static"), (c!"dhcpclass", .str c!""), (c!"device", .str c!""), (c!"essid", .str c!""), (c!"ethtool", .str c!""), (c!"gateway", .str c!""), (c!"hostname", .str c!""), (c!"ip", .str c!"i"), (c!"mtu", .str c!""), (c!"nameserver", .str c!""), (c!"netmask", .str c!""), (c!"nodns", .bool false), (c!"onboot", .bool true), (c!"wepkey", .str c!""), (c!"notksdevice", .bool false)]

theorem obeys_networkLines3_15_base (n : Str) : Command.FirstBase (RHEL4_Network.cls RHEL4_NetworkData.cls) n [c!"--bootproto=static", c!"--ip=i"] obeys_networkLines3_15_object := by
  intro b b' hb hb' line l; kernel_rfl

theorem obeys_networkLines3_15_start : Command.FirstStart (RHEL4_Network.cls RHEL4_NetworkData.cls) obeys_networkLines3_15_object (networkLines3.start.getD 0 ([], [])).2 := fun _ => .inl ⟨fun _ => rfl, (all_cons (by kernel_rfl) (all_cons (by kernel_rfl) (all_cons (by kernel_rfl) (List.forall_mem_nil _))))⟩

theorem obeys_networkLines3_15_lines (n : Str) : ∀ i ∈ [], Command.FirstLine (RHEL4_Network.cls RHEL4_NetworkData.cls) n [c!"--bootproto=static", c!"--ip=i"] obeys_networkLines3_15_object (networkLines3.lines.getD i noLine) :=
  (List.forall_mem_nil _)

theorem obeys_networkLines3_15 : ∀ v, [Version.RHEL4].contains v = true → Command.Obeys (RHEL4_Network.cls RHEL4_NetworkData.cls) networkLines3 v :=
  obeys_of obeys_networkLines3_15_object [0] [] (obeys_networkLines3_15_base _) (all_cons obeys_networkLines3_15_start (List.forall_mem_nil _)) (obeys_networkLines3_15_lines _) (by decide +kernel)

def obeys_networkLines3_16_object (l : Nat) : Ns := [(c!"lineno", .int l), (c!"bootProto", .str c!"static"), (c!"dhcpclass", .str c!""), (c!"device", .str c!""), (c!"essid", .str c!""), (c!"ethtool", .str c!""), (c!"gateway", .str c!""), (c!"hostname", .str c!""), (c!"ip", .str c!"i"), (c!"mtu", .str c!""), (c!"nameserver", .str c!""), (c!"netmask", .str c!""), (c!"nodns", .bool false), (c!"onboot", .bool true), (c!"wepkey", .str c!""), (c!"notksdevice", .bool false), (c!"noipv4", .bool false), (c!"noipv6", .bool false)]

theorem obeys_networkLines3_16_base (n : Str) : Command.FirstBase (RHEL5_Network.cls FC6_NetworkData.cls) n [c!"--bootproto=static", c!"--ip=i"] obeys_networkLines3_16_object := by
  intro b b' hb hb' line l; kernel_rfl

theorem obeys_networkLines3_16_start : Command.FirstStart (RHEL5_Network.cls FC6_NetworkData.cls) obeys_networkLines3_16_object (networkLines3.start.getD 0 ([], [])).2 := fun _ => .inl ⟨fun _ => rfl, (all_cons (by kernel_rfl) (all_cons (by kernel_rfl) (all_cons (by kernel_rfl) (List.forall_mem_nil _))))⟩

theorem obeys_networkLines3_16_lines (n : Str) : ∀ i ∈ [], Command.FirstLine (RHEL5_Network.cls FC6_NetworkData.cls) n [c!"--bootproto=static", c!"--ip=i"] obeys_networkLines3_16_object (networkLines3.lines.getD i noLine) :=
  (List.forall_mem_nil _)

theorem obeys_networkLines3_16 : ∀ v, [Version.RHEL5].contains v = true → Command.Obeys (RHEL5_Network.cls FC6_NetworkData.cls) networkLines3 v :=
  obeys_of obeys_networkLines3_16_object [0] [] (obeys_networkLines3_16_base _) (all_cons obeys_networkLines3_16_start (List.forall_mem_nil _)) (obeys_networkLines3_16_lines _) (by decide +kernel)

def obeys_networkLines3_17_object (l : Nat) : Ns := [(c!"lineno", .int l), (c!"bootProto", .str c!"static"), (c!"dhcpclass", .str c!""), (c!"device", .str c!""), (c!"essid", .str c!""), (c!"ethtool", .str c!""), (c!"gateway", .str c!""), (c!"hostname", .str c!""), (c!"ip", .str c!"i"), (c!"mtu", .str c!""), (c!"nameserver", .str c!""), (c!"netmask", .str c!""), (c!"nodns", .bool false), (c!"onboot", .bool true), (c!"wepkey", .str c!""), (c!"notksdevice", .bool false), (c!"noipv4", .bool false), (c!"noipv6", .bool false), (c!"ipv6", .str c!""), (c!"activate", .none), (c!"nodefroute", .bool false), (c!"vlanid", .str c!""), (c!"bondslaves", .str c!""), (c!"bondopts", .str c!"")]

theorem obeys_networkLines3_17_base (n : Str) : Command.FirstBase (RHEL6_Network.cls RHEL6_NetworkData.cls) n [c!"--bootproto=static", c!"--ip=i"] obeys_networkLines3_17_object := by
  intro b b' hb hb' line l; kernel_rfl

theorem obeys_networkLines3_17_start : Command.FirstStart (RHEL6_Network.cls RHEL6_NetworkData.cls) obeys_networkLines3_17_object (networkLines3.start.getD 0 ([], [])).2 := fun _ => .inl ⟨fun _ => rfl, (all_cons (by kernel_rfl) (all_cons (by kernel_rfl) (all_cons (by kernel_rfl) (List.forall_mem_nil _))))⟩

theorem obeys_networkLines3_17_lines (n : Str) : ∀ i ∈ [], Command.FirstLine (RHEL6_Network.cls RHEL6_NetworkData.cls) n [c!"--bootproto=static", c!"--ip=i"] obeys_networkLines3_17_object (networkLines3.lines.getD i noLine) :=
  (List.forall_mem_nil _)

theorem obeys_networkLines3_17 : ∀ v, [Version.RHEL6].contains v = true → Command.Obeys (RHEL6_Network.cls RHEL6_NetworkData.cls) networkLines3 v :=
  obeys_of obeys_networkLines3_17_object [0] [] (obeys_networkLines3_17_base _) (all_cons obeys_networkLines3_17_start (List.forall_mem_nil _)) (obeys_networkLines3_17_lines _) (by decide +kernel)

def obeys_networkLines3_18_object (l : Nat) : Ns := [(c!"lineno", .int l), (c!"bootProto", .str c!"static"), (c!"dhcpclass", .str c!""), (c!"device", .str c!""), (c!"essid", .str c!""), (c!"ethtool", .str c!""), (c!"gateway", .str c!""), (c!"hostname", .str c!""), (c!"ip", .str c!"i"), (c!"mtu", .str c!""), (c!"nameserver", .str c!""), (c!"netmask", .str c!""), (c!"nodns", .bool false), (c!"onboot", .bool true), (c!"wepkey", .str c!""), (c!"notksdevice", .bool false), (c!"noipv4", .bool false), (c!"noipv6", .bool false), (c!"ipv6", .str c!""), (c!"activate", .none), (c!"nodefroute", .bool false), (c!"wpakey", .str c!""), (c!"bondslaves", .str c!""), (c!"bondopts", .str c!""), (c!"vlanid", .str c!""), (c!"ipv6gateway", .str c!""), (c!"teamslaves", .list []), (c!"teamconfig", .str c!""), (c!"interfacename", .str c!""), (c!"bridgeslaves", .str c!""), (c!"bridgeopts", .str c!""), (c!"bindto", .none)]

theorem obeys_networkLines3_18_base (n : Str) : Command.FirstBase (RHEL7_Network.cls RHEL7_NetworkData.cls) n [c!"--bootproto=static", c!"--ip=i"] obeys_networkLines3_18_object := by
  intro b b' hb hb' line l; kernel_rfl

theorem obeys_networkLines3_18_start : Command.FirstStart (RHEL7_Network.cls RHEL7_NetworkData.cls) obeys_networkLines3_18_object (networkLines3.start.getD 0 ([], [])).2 := fun _ => .inl ⟨fun _ => rfl, (all_cons (by kernel_rfl) (all_cons (by kernel_rfl) (all_cons (by kernel_rfl) (List.forall_mem_nil _))))⟩

theorem obeys_networkLines3_18_lines (n : Str) : ∀ i ∈ [], Command.FirstLine (RHEL7_Network.cls RHEL7_NetworkData.cls) n [c!"--bootproto=static", c!"--ip=i"] obeys_networkLines3_18_object (networkLines3.lines.getD i noLine) :=
  (List.forall_mem_nil _)

theorem obeys_networkLines3_18 : ∀ v, [Version.RHEL7].contains v = true → Command.Obeys (RHEL7_Network.cls RHEL7_NetworkData.cls) networkLines3 v :=
  obeys_of obeys_networkLines3_18_object [0] [] (obeys_networkLines3_18_base _) (all_cons obeys_networkLines3_18_start (List.forall_mem_nil _)) (obeys_networkLines3_18_lines _) (by decide +kernel)

theorem obeys_networkLines3 : networkLines3.Obeyed := by
  unfold CommandLines.Obeyed commandMaps
  exact (all_cons (fun _ c h => by cases h; exact obeys_networkLines3_0 _ rfl)
    (all_cons (fun _ c h => by cases h; exact obeys_networkLines3_0 _ rfl)
    (all_cons (fun _ c h => by cases h; exact obeys_networkLines3_0 _ rfl)
    (all_cons (fun _ c h => by cases h; exact obeys_networkLines3_0 _ rfl)
    (all_cons (fun _ c h => by cases h; exact obeys_networkLines3_0 _ rfl)
    (all_cons (fun _ c h => by cases h; exact obeys_networkLines3_0 _ rfl)
    (all_cons (fun _ c h => by cases h; exact obeys_networkLines3_1 _ rfl)
    (all_cons (fun _ c h => by cases h; exact obeys_networkLines3_1 _ rfl)
    (all_cons (fun _ c h => by cases h; exact obeys_networkLines3_2 _ rfl)
    (all_cons (fun _ c h => by cases h; exact obeys_networkLines3_3 _ rfl)
    (all_cons (fun _ c h => by cases h; exact obeys_networkLines3_4 _ rfl)
    (all_cons (fun _ c h => by cases h; exact obeys_networkLines3_5 _ rfl)
    (all_cons (fun _ c h => by cases h; exact obeys_networkLines3_6 _ rfl)
    (all_cons (fun _ c h => by cases h; exact obeys_networkLines3_6 _ rfl)
    (all_cons (fun _ c h => by cases h; exact obeys_networkLines3_7 _ rfl)
    (all_cons (fun _ c h => by cases h; exact obeys_networkLines3_8 _ rfl)
    (all_cons (fun _ c h => by cases h; exact obeys_networkLines3_8 _ rfl)
    (all_cons (fun _ c h => by cases h; exact obeys_networkLines3_9 _ rfl)
    (all_cons (fun _ c h => by cases h; exact obeys_networkLines3_9 _ rfl)
    (all_cons (fun _ c h => by cases h; exact obeys_networkLines3_9 _ rfl)
    (all_cons (fun _ c h => by cases h; exact obeys_networkLines3_9 _ rfl)
    (all_cons (fun _ c h => by cases h; exact obeys_networkLines3_9 _ rfl)
    (all_cons (fun _ c h => by cases h; exact obeys_networkLines3_9 _ rfl)
    (all_cons (fun _ c h => by cases h; exact obeys_networkLines3_9 _ rfl)
    (all_cons (fun _ c h => by cases h; exact obeys_networkLines3_9 _ rfl)
    (all_cons (fun _ c h => by cases h; exact obeys_networkLines3_10 _ rfl)
    (all_cons (fun _ c h => by cases h; exact obeys_networkLines3_11 _ rfl)
    (all_cons (fun _ c h => by cases h; exact obeys_networkLines3_0 _ rfl)
    (all_cons (fun _ c h => by cases h; exact obeys_networkLines3_12 _ rfl)
    (all_cons (fun _ c h => by cases h; exact obeys_networkLines3_13 _ rfl)
    (all_cons (fun _ c h => by cases h; exact obeys_networkLines3_13 _ rfl)
    (all_cons (fun _ c h => by cases h; exact obeys_networkLines3_10 _ rfl)
    (all_cons (fun _ c h => by cases h; exact obeys_networkLines3_14 _ rfl)
    (all_cons (fun _ c h => by cases h; exact obeys_networkLines3_15 _ rfl)
    (all_cons (fun _ c h => by cases h; exact obeys_networkLines3_16 _ rfl)
    (all_cons (fun _ c h => by cases h; exact obeys_networkLines3_17 _ rfl)
    (all_cons (fun _ c h => by cases h; exact obeys_networkLines3_18 _ rfl)
    (all_cons (fun _ c h => by cases h; exact obeys_networkLines3_9 _ rfl) (List.forall_mem_nil _)))))))))))))))))))))))))))))))))))))))

def obeys_networkLines4_0_object (l : Nat) : Ns := [(c!"lineno", .int l), (c!"bootProto", .str c!"dhcp"), (c!"dhcpclass", .str c!""), (c!"device", .str c!"t"), (c!"essid", .str c!""), (c!"ethtool", .str c!""), (c!"gateway", .str c!""), (c!"hostname", .str c!""), (c!"ip", .str c!""), (c!"mtu", .str c!""), (c!"nameserver", .str c!""), (c!"netmask", .str c!""), (c!"nodns", .bool false), (c!"onboot", .bool true), (c!"wepkey", .str c!""), (c!"notksdevice", .bool false), (c!"noipv4", .bool false), (c!"noipv6", .bool false), (c!"ipv6", .str c!"")]

theorem obeys_networkLines4_0_base (n : Str) : Command.FirstBase (F9_Network.cls F8_NetworkData.cls) n [c!"--device=t"] obeys_networkLines4_0_object := by
  intro b b' hb hb' line l; kernel_rfl

theorem obeys_networkLines4_0_start : Command.FirstStart (F9_Network.cls F8_NetworkData.cls) obeys_networkLines4_0_object (networkLines4.start.getD 0 ([], [])).2 := fun _ => .inl ⟨fun _ => rfl, (all_cons (by kernel_rfl) (all_cons (by kernel_rfl) (all_cons (by kernel_rfl) (List.forall_mem_nil _))))⟩

theorem obeys_networkLines4_0_lines (n : Str) : ∀ i ∈ [2, 4], Command.FirstLine (F9_Network.cls F8_NetworkData.cls) n [c!"--device=t"] obeys_networkLines4_0_object (networkLines4.lines.getD i noLine) :=
  (all_cons (by intro b b' hb hb' x hx line l; kernel_rfl)
    (all_cons (by intro b b' hb hb' x hx line l; kernel_rfl)
    (List.forall_mem_nil _)))

theorem obeys_networkLines4_0 : ∀ v, [Version.F9, Version.F10, Version.F11, Version.F12, Version.F13, Version.F14, Version.F15].contains v = true → Command.Obeys (F9_Network.cls F8_NetworkData.cls) networkLines4 v :=
  obeys_of obeys_networkLines4_0_object [0] [2, 4] (obeys_networkLines4_0_base _) (all_cons obeys_networkLines4_0_start (List.forall_mem_nil _)) (obeys_networkLines4_0_lines _) (by decide +kernel)

def obeys_networkLines4_1_object (l : Nat) : Ns := [(c!"lineno", .int l), (c!"bootProto", .str c!"dhcp"), (c!"dhcpclass", .str c!""), (c!"device", .str c!"t"), (c!"essid", .str c!""), (c!"ethtool", .str c!""), (c!"gateway", .str c!""), (c!"hostname", .str c!""), (c!"ip", .str c!""), (c!"mtu", .str c!""), (c!"nameserver", .str c!""), (c!"netmask", .str c!""), (c!"nodns", .bool false), (c!"onboot", .bool true), (c!"wepkey", .str c!""), (c!"notksdevice", .bool false), (c!"noipv4", .bool false), (c!"noipv6", .bool false), (c!"ipv6", .str c!""), (c!"activate", .none), (c!"nodefroute", .bool false), (c!"wpakey", .str c!"")]

theorem obeys_networkLines4_1_base (n : Str) : Command.FirstBase (F16_Network.cls F16_NetworkData.cls) n [c!"--device=t"] obeys_networkLines4_1_object := by
  intro b b' hb hb' line l; kernel_rfl

theorem obeys_networkLines4_1_start : Command.FirstStart (F16_Network.cls F16_NetworkData.cls) obeys_networkLines4_1_object (networkLines4.start.getD 0 ([], [])).2 := fun _ => .inl ⟨fun _ => rfl, (all_cons (by kernel_rfl) (all_cons (by kernel_rfl) (all_cons (by kernel_rfl) (List.forall_mem_nil _))))⟩

theorem obeys_networkLines4_1_lines (n : Str) : ∀ i ∈ [], Command.FirstLine (F16_Network.cls F16_NetworkData.cls) n [c!"--device=t"] obeys_networkLines4_1_object (networkLines4.lines.getD i noLine) :=
  (List.forall_mem_nil _)

theorem obeys_networkLines4_1 : ∀ v, [Version.F16, Version.F17].contains v = true → Command.Obeys (F16_Network.cls F16_NetworkData.cls) networkLines4 v :=
  obeys_of obeys_networkLines4_1_object [0] [] (obeys_networkLines4_1_base _) (all_cons obeys_networkLines4_1_start (List.forall_mem_nil _)) (obeys_networkLines4_1_lines _) (by decide +kernel)

def obeys_networkLines4_2_object (l : Nat) : Ns := [(c!"lineno", .int l), (c!"bootProto", .str c!"dhcp"), (c!"dhcpclass", .str c!""), (c!"device", .str c!"t"), (c!"essid", .str c!""), (c!"ethtool", .str c!""), (c!"gateway", .str c!""), (c!"hostname", .str c!""), (c!"ip", .str c!""), (c!"mtu", .str c!""), (c!"nameserver", .str c!""), (c!"netmask", .str c!""), (c!"nodns", .bool false), (c!"onboot", .bool true), (c!"wepkey", .str c!""), (c!"notksdevice", .bool false), (c!"noipv4", .bool false), (c!"noipv6", .bool false), (c!"ipv6", .str c!""), (c!"activate", .none), (c!"nodefroute", .bool false), (c!"wpakey", .str c!"")]

theorem obeys_networkLines4_2_base (n : Str) : Command.FirstBase (F18_Network.cls F16_NetworkData.cls) n [c!"--device=t"] obeys_networkLines4_2_object := by
  intro b b' hb hb' line l; kernel_rfl

theorem obeys_networkLines4_2_start : Command.FirstStart (F18_Network.cls F16_NetworkData.cls) obeys_networkLines4_2_object (networkLines4.start.getD 0 ([], [])).2 := fun _ => .inl ⟨fun _ => rfl, (all_cons (by kernel_rfl) (all_cons (by kernel_rfl) (all_cons (by kernel_rfl) (List.forall_mem_nil _))))⟩

theorem obeys_networkLines4_2_lines (n : Str) : ∀ i ∈ [2, 4], Command.FirstLine (F18_Network.cls F16_NetworkData.cls) n [c!"--device=t"] obeys_networkLines4_2_object (networkLines4.lines.getD i noLine) :=
  (all_cons (by intro b b' hb hb' x hx line l; kernel_rfl)
    (all_cons (by intro b b' hb hb' x hx line l; kernel_rfl)
    (List.forall_mem_nil _)))

theorem obeys_networkLines4_2 : ∀ v, [Version.F18].contains v = true → Command.Obeys (F18_Network.cls F16_NetworkData.cls) networkLines4 v :=
  obeys_of obeys_networkLines4_2_object [0] [2, 4] (obeys_networkLines4_2_base _) (all_cons obeys_networkLines4_2_start (List.forall_mem_nil _)) (obeys_networkLines4_2_lines _) (by decide +kernel)

def obeys_networkLines4_3_object (l : Nat) : Ns := [(c!"lineno", .int l), (c!"bootProto", .str c!"dhcp"), (c!"dhcpclass", .str c!""), (c!"device", .str c!"t"), (c!"essid", .str c!""), (c!"ethtool", .str c!""), (c!"gateway", .str c!""), (c!"hostname", .str c!""), (c!"ip", .str c!""), (c!"mtu", .str c!""), (c!"nameserver", .str c!""), (c!"netmask", .str c!""), (c!"nodns", .bool false), (c!"onboot", .bool true), (c!"wepkey", .str c!""), (c!"notksdevice", .bool false), (c!"noipv4", .bool false), (c!"noipv6", .bool false), (c!"ipv6", .str c!""), (c!"activate", .none), (c!"nodefroute", .bool false), (c!"wpakey", .str c!""), (c!"bondslaves", .str c!""), (c!"bondopts", .str c!""), (c!"vlanid", .str c!""), (c!"ipv6gateway", .str c!"")]

theorem obeys_networkLines4_3_base (n : Str) : Command.FirstBase (F19_Network.cls F19_NetworkData.cls) n [c!"--device=t"] obeys_networkLines4_3_object := by
  intro b b' hb hb' line l; kernel_rfl

theorem obeys_networkLines4_3_start : Command.FirstStart (F19_Network.cls F19_NetworkData.cls) obeys_networkLines4_3_object (networkLines4.start.getD 0 ([], [])).2 := fun _ => .inl ⟨fun _ => rfl, (all_cons (by kernel_rfl) (all_cons (by kernel_rfl) (all_cons (by kernel_rfl) (List.forall_mem_nil _))))⟩

theorem obeys_networkLines4_3_lines (n : Str) : ∀ i ∈ [0, 3, 5], Command.FirstLine (F19_Network.cls F19_NetworkData.cls) n [c!"--device=t"] obeys_networkLines4_3_object (networkLines4.lines.getD i noLine) :=
  (all_cons (by intro b b' hb hb' x hx line l; kernel_rfl)
    (all_cons (by intro b b' hb hb' x hx line l; kernel_rfl)
    (all_cons (by intro b b' hb hb' x hx line l; kernel_rfl)
    (List.forall_mem_nil _))))

theorem obeys_networkLines4_3 : ∀ v, [Version.F19].contains v = true → Command.Obeys (F19_Network.cls F19_NetworkData.cls) networkLines4 v :=
  obeys_of obeys_networkLines4_3_object [0] [0, 3, 5] (obeys_networkLines4_3_base _) (all_cons obeys_networkLines4_3_start (List.forall_mem_nil _)) (obeys_networkLines4_3_lines _) (by decide +kernel)

def obeys_networkLines4_4_object (l : Nat) : Ns := [(c!"lineno", .int l), (c!"bootProto", .str c!"dhcp"), (c!"dhcpclass", .str c!""), (c!"device", .str c!"t"), (c!"essid", .str c!""), (c!"ethtool", .str c!""), (c!"gateway", .str c!""), (c!"hostname", .str c!""), (c!"ip", .str c!""), (c!"mtu", .str c!""), (c!"nameserver", .str c!""), (c!"netmask", .str c!""), (c!"nodns", .bool false), (c!"onboot", .bool true), (c!"wepkey", .str c!""), (c!"notksdevice", .bool false), (c!"noipv4", .bool false), (c!"noipv6", .bool false), (c!"ipv6", .str c!""), (c!"activate", .none), (c!"nodefroute", .bool false), (c!"wpakey", .str c!""), (c!"bondslaves", .str c!""), (c!"bondopts", .str c!""), (c!"vlanid", .str c!""), (c!"ipv6gateway", .str c!""), (c!"teamslaves", .list []), (c!"teamconfig", .str c!"")]

theorem obeys_networkLines4_4_base (n : Str) : Command.FirstBase (F20_Network.cls F20_NetworkData.cls) n [c!"--device=t"] obeys_networkLines4_4_object := by
  intro b b' hb hb' line l; kernel_rfl

theorem obeys_networkLines4_4_start : Command.FirstStart (F20_Network.cls F20_NetworkData.cls) obeys_networkLines4_4_object (networkLines4.start.getD 0 ([], [])).2 := fun _ => .inl ⟨fun _ => rfl, (all_cons (by kernel_rfl) (all_cons (by kernel_rfl) (all_cons (by kernel_rfl) (List.forall_mem_nil _))))⟩

theorem obeys_networkLines4_4_lines (n : Str) : ∀ i ∈ [1], Command.FirstLine (F20_Network.cls F20_NetworkData.cls) n [c!"--device=t"] obeys_networkLines4_4_object (networkLines4.lines.getD i noLine) :=
  (all_cons (by intro b b' hb hb' x hx line l; kernel_rfl)
    (List.forall_mem_nil _))

theorem obeys_networkLines4_4 : ∀ v, [Version.F20].contains v = true → Command.Obeys (F20_Network.cls F20_NetworkData.cls) networkLines4 v :=
  obeys_of obeys_networkLines4_4_object [0] [1] (obeys_networkLines4_4_base _) (all_cons obeys_networkLines4_4_start (List.forall_mem_nil _)) (obeys_networkLines4_4_lines _) (by decide +kernel)

def obeys_networkLines4_5_object (l : Nat) : Ns := [(c!"lineno", .int l), (c!"bootProto", .str c!"dhcp"), (c!"dhcpclass", .str c!""), (c!"device", .str c!"t"), (c!"essid", .str c!""), (c!"ethtool", .str c!""), (c!"gateway", .str c!""), (c!"hostname", .str c!""), (c!"ip", .str c!""), (c!"mtu", .str c!""), (c!"nameserver", .str c!""), (c!"netmask", .str c!""), (c!"nodns", .bool false), (c!"onboot", .bool true), (c!"wepkey", .str c!""), (c!"notksdevice", .bool false), (c!"noipv4", .bool false), (c!"noipv6", .bool false), (c!"ipv6", .str c!""), (c!"activate", .none), (c!"nodefroute", .bool false), (c!"wpakey", .str c!""), (c!"bondslaves", .str c!""), (c!"bondopts", .str c!""), (c!"vlanid", .str c!""), (c!"ipv6gateway", .str c!""), (c!"teamslaves", .list []), (c!"teamconfig", .str c!""), (c!"interfacename", .str c!"")]

theorem obeys_networkLines4_5_base (n : Str) : Command.FirstBase (F21_Network.cls F21_NetworkData.cls) n [c!"--device=t"] obeys_networkLines4_5_object := by
  intro b b' hb hb' line l; kernel_rfl

theorem obeys_networkLines4_5_start : Command.FirstStart (F21_Network.cls F21_NetworkData.cls) obeys_networkLines4_5_object (networkLines4.start.getD 0 ([], [])).2 := fun _ => .inl ⟨fun _ => rfl, (all_cons (by kernel_rfl) (all_cons (by kernel_rfl) (all_cons (by kernel_rfl) (List.forall_mem_nil _))))⟩

theorem obeys_networkLines4_5_lines (n : Str) : ∀ i ∈ [], Command.FirstLine (F21_Network.cls F21_NetworkData.cls) n [c!"--device=t"] obeys_networkLines4_5_object (networkLines4.lines.getD i noLine) :=
  (List.forall_mem_nil _)

theorem obeys_networkLines4_5 : ∀ v, [Version.F21].contains v = true → Command.Obeys (F21_Network.cls F21_NetworkData.cls) networkLines4 v :=
  obeys_of obeys_networkLines4_5_object [0] [] (obeys_networkLines4_5_base _) (all_cons obeys_networkLines4_5_start (List.forall_mem_nil _)) (obeys_networkLines4_5_lines _) (by decide +kernel)

def obeys_networkLines4_6_object (l : Nat) : Ns := [(c!"lineno", .int l), (c!"bootProto", .str c!"dhcp"), (c!"dhcpclass", .str c!""), (c!"device", .str c!"t"), (c!"essid", .str c!""), (c!"ethtool", .str c!""), (c!"gateway", .str c!""), (c!"hostname", .str c!""), (c!"ip", .str c!""), (c!"mtu", .str c!""), (c!"nameserver", .str c!""), (c!"netmask", .str c!""), (c!"nodns", .bool false), (c!"onboot", .bool true), (c!"wepkey", .str c!""), (c!"notksdevice", .bool false), (c!"noipv4", .bool false), (c!"noipv6", .bool false), (c!"ipv6", .str c!""), (c!"activate", .none), (c!"nodefroute", .bool false), (c!"wpakey", .str c!""), (c!"bondslaves", .str c!""), (c!"bondopts", .str c!""), (c!"vlanid", .str c!""), (c!"ipv6gateway", .str c!""), (c!"teamslaves", .list []), (c!"teamconfig", .str c!""), (c!"interfacename", .str c!""), (c!"bridgeslaves", .str c!""), (c!"bridgeopts", .str c!"")]

theorem obeys_networkLines4_6_base (n : Str) : Command.FirstBase (F22_Network.cls F22_NetworkData.cls) n [c!"--device=t"] obeys_networkLines4_6_object := by
  intro b b' hb hb' line l; kernel_rfl

theorem obeys_networkLines4_6_start : Command.FirstStart (F22_Network.cls F22_NetworkData.cls) obeys_networkLines4_6_object (networkLines4.start.getD 0 ([], [])).2 := fun _ => .inl ⟨fun _ => rfl, (all_cons (by kernel_rfl) (all_cons (by kernel_rfl) (all_cons (by kernel_rfl) (List.forall_mem_nil _))))⟩

theorem obeys_networkLines4_6_lines (n : Str) : ∀ i ∈ [], Command.FirstLine (F22_Network.cls F22_NetworkData.cls) n [c!"--device=t"] obeys_networkLines4_6_object (networkLines4.lines.getD i noLine) :=
  (List.forall_mem_nil _)

theorem obeys_networkLines4_6 : ∀ v, [Version.F22, Version.F23].contains v = true → Command.Obeys (F22_Network.cls F22_NetworkData.cls) networkLines4 v :=
  obeys_of obeys_networkLines4_6_object [0] [] (obeys_networkLines4_6_base _) (all_cons obeys_networkLines4_6_start (List.forall_mem_nil _)) (obeys_networkLines4_6_lines _) (by decide +kernel)

def obeys_networkLines4_7_object (l : Nat) : Ns := [(c!"lineno", .int l), (c!"bootProto", .str c!"dhcp"), (c!"dhcpclass", .str c!""), (c!"device", .str c!"t"), (c!"essid", .str c!""), (c!"ethtool", .str c!""), (c!"gateway", .str c!""), (c!"hostname", .str c!""), (c!"ip", .str c!""), (c!"mtu", .str c!""), (c!"nameserver", .str c!""), (c!"netmask", .str c!""), (c!"nodns", .bool false), (c!"onboot", .bool true), (c!"wepkey", .str c!""), (c!"notksdevice", .bool false), (c!"noipv4", .bool false), (c!"noipv6", .bool false), (c!"ipv6", .str c!""), (c!"activate", .none), (c!"nodefroute", .bool false), (c!"wpakey", .str c!""), (c!"bondslaves", .str c!""), (c!"bondopts", .str c!""), (c!"vlanid", .str c!""), (c!"ipv6gateway", .str c!""), (c!"teamslaves", .list []), (c!"teamconfig", .str c!""), (c!"interfacename", .str c!""), (c!"bridgeslaves", .str c!""), (c!"bridgeopts", .str c!"")]

theorem obeys_networkLines4_7_base (n : Str) : Command.FirstBase (F24_Network.cls F22_NetworkData.cls) n [c!"--device=t"] obeys_networkLines4_7_object := by
  intro b b' hb hb' line l; kernel_rfl

theorem obeys_networkLines4_7_start : Command.FirstStart (F24_Network.cls F22_NetworkData.cls) obeys_networkLines4_7_object (networkLines4.start.getD 0 ([], [])).2 := fun _ => .inl ⟨fun _ => rfl, (all_cons (by kernel_rfl) (all_cons (by kernel_rfl) (all_cons (by kernel_rfl) (List.forall_mem_nil _))))⟩

theorem obeys_networkLines4_7_lines (n : Str) : ∀ i ∈ [], Command.FirstLine (F24_Network.cls F22_NetworkData.cls) n [c!"--device=t"] obeys_networkLines4_7_object (networkLines4.lines.getD i noLine) :=
  (List.forall_mem_nil _)

theorem obeys_networkLines4_7 : ∀ v, [Version.F24].contains v = true → Command.Obeys (F24_Network.cls F22_NetworkData.cls) networkLines4 v :=
  obeys_of obeys_networkLines4_7_object [0] [] (obeys_networkLines4_7_base _) (all_cons obeys_networkLines4_7_start (List.forall_mem_nil _)) (obeys_networkLines4_7_lines _) (by decide +kernel)

def obeys_networkLines4_8_object (l : Nat) : Ns := [(c!"lineno", .int l), (c!"bootProto", .str c!"dhcp"), (c!"dhcpclass", .str c!""), (c!"device", .str c!"t"), (c!"essid", .str c!""), (c!"ethtool", .str c!""), (c!"gateway", .str c!""), (c!"hostname", .str c!""), (c!"ip", .str c!""), (c!"mtu", .str c!""), (c!"nameserver", .str c!""), (c!"netmask", .str c!""), (c!"nodns", .bool false), (c!"onboot", .bool true), (c!"wepkey", .str c!""), (c!"notksdevice", .bool false), (c!"noipv4", .bool false), (c!"noipv6", .bool false), (c!"ipv6", .str c!""), (c!"activate", .none), (c!"nodefroute", .bool false), (c!"wpakey", .str c!""), (c!"bondslaves", .str c!""), (c!"bondopts", .str c!""), (c!"vlanid", .str c!""), (c!"ipv6gateway", .str c!""), (c!"teamslaves", .list []), (c!"teamconfig", .str c!""), (c!"interfacename", .str c!""), (c!"bridgeslaves", .str c!""), (c!"bridgeopts", .str c!"")]

theorem obeys_networkLines4_8_base (n : Str) : Command.FirstBase (F25_Network.cls F25_NetworkData.cls) n [c!"--device=t"] obeys_networkLines4_8_object := by
  intro b b' hb hb' line l; kernel_rfl

theorem obeys_networkLines4_8_start : Command.FirstStart (F25_Network.cls F25_NetworkData.cls) obeys_networkLines4_8_object (networkLines4.start.getD 0 ([], [])).2 := fun _ => .inl ⟨fun _ => rfl, (all_cons (by kernel_rfl) (all_cons (by kernel_rfl) (all_cons (by kernel_rfl) (List.forall_mem_nil _))))⟩

theorem obeys_networkLines4_8_lines (n : Str) : ∀ i ∈ [], Command.FirstLine (F25_Network.cls F25_NetworkData.cls) n [c!"--device=t"] obeys_networkLines4_8_object (networkLines4.lines.getD i noLine) :=
  (List.forall_mem_nil _)

theorem obeys_networkLines4_8 : ∀ v, [Version.F25, Version.F26].contains v = true → Command.Obeys (F25_Network.cls F25_NetworkData.cls) networkLines4 v :=
  obeys_of obeys_networkLines4_8_object [0] [] (obeys_networkLines4_8_base _) (all_cons obeys_networkLines4_8_start (List.forall_mem_nil _)) (obeys_networkLines4_8_lines _) (by decide +kernel)

def obeys_networkLines4_9_object (l : Nat) : Ns := [(c!"lineno", .int l), (c!"bootProto", .str c!"dhcp"), (c!"dhcpclass", .str c!""), (c!"device", .str c!"t"), (c!"essid", .str c!""), (c!"ethtool", .str c!""), (c!"gateway", .str c!""), (c!"hostname", .str c!""), (c!"ip", .str c!""), (c!"mtu", .str c!""), (c!"nameserver", .str c!""), (c!"netmask", .str c!""), (c!"nodns", .bool false), (c!"onboot", .bool true), (c!"wepkey", .str c!""), (c!"notksdevice", .bool false), (c!"noipv4", .bool false), (c!"noipv6", .bool false), (c!"ipv6", .str c!""), (c!"activate", .none), (c!"nodefroute", .bool false), (c!"wpakey", .str c!""), (c!"bondslaves", .str c!""), (c!"bondopts", .str c!""), (c!"vlanid", .str c!""), (c!"ipv6gateway", .str c!""), (c!"teamslaves", .list []), (c!"teamconfig", .str c!""), (c!"interfacename", .str c!""), (c!"bridgeslaves", .str c!""), (c!"bridgeopts", .str c!""), (c!"bindto", .none)]

theorem obeys_networkLines4_9_base (n : Str) : Command.FirstBase (F27_Network.cls F27_NetworkData.cls) n [c!"--device=t"] obeys_networkLines4_9_object := by
  intro b b' hb hb' line l; kernel_rfl

theorem obeys_networkLines4_9_start : Command.FirstStart (F27_Network.cls F27_NetworkData.cls) obeys_networkLines4_9_object (networkLines4.start.getD 0 ([], [])).2 := fun _ => .inl ⟨fun _ => rfl, (all_cons (by kernel_rfl) (all_cons (by kernel_rfl) (all_cons (by kernel_rfl) (List.forall_mem_nil _))))⟩

theorem obeys_networkLines4_9_lines (n : Str) : ∀ i ∈ [1, 3, 5], Command.FirstLine (F27_Network.cls F27_NetworkData.cls) n [c!"--device=t"] obeys_networkLines4_9_object (networkLines4.lines.getD i noLine) :=
  (all_cons (by intro b b' hb hb' x hx line l; kernel_rfl)
    (all_cons (by intro b b' hb hb' x hx line l; kernel_rfl)
    (all_cons (by intro b b' hb hb' x hx line l; kernel_rfl)
    (List.forall_mem_nil _))))

theorem obeys_networkLines4_9 : ∀ v, [Version.F27, Version.F28, Version.RHEL8, Version.F29, Version.F30, Version.F31, Version.F32, Version.F33, Version.F34].contains v = true → Command.Obeys (F27_Network.cls F27_NetworkData.cls) networkLines4 v :=
  obeys_of obeys_networkLines4_9_object [0] [1, 3, 5] (obeys_networkLines4_9_base _) (all_cons obeys_networkLines4_9_start (List.forall_mem_nil _)) (obeys_networkLines4_9_lines _) (by decide +kernel)

def obeys_networkLines4_10_object (l : Nat) : Ns := [(c!"lineno", .int l), (c!"bootProto", .str c!"dhcp"), (c!"dhcpclass", .str c!""), (c!"device", .str c!"t"), (c!"essid", .str c!""), (c!"ethtool", .str c!""), (c!"gateway", .str c!""), (c!"hostname", .str c!""), (c!"ip", .str c!""), (c!"mtu", .str c!""), (c!"nameserver", .str c!""), (c!"netmask", .str c!""), (c!"nodns", .bool false), (c!"onboot", .bool true), (c!"wepkey", .str c!""), (c!"notksdevice", .bool false), (c!"noipv4", .bool false), (c!"noipv6", .bool false)]

theorem obeys_networkLines4_10_base (n : Str) : Command.FirstBase (FC6_Network.cls FC6_NetworkData.cls) n [c!"--device=t"] obeys_networkLines4_10_object := by
  intro b b' hb hb' line l; kernel_rfl

theorem obeys_networkLines4_10_start : Command.FirstStart (FC6_Network.cls FC6_NetworkData.cls) obeys_networkLines4_10_object (networkLines4.start.getD 0 ([], [])).2 := fun _ => .inl ⟨fun _ => rfl, (all_cons (by kernel_rfl) (all_cons (by kernel_rfl) (all_cons (by kernel_rfl) (List.forall_mem_nil _))))⟩

theorem obeys_networkLines4_10_lines (n : Str) : ∀ i ∈ [], Command.FirstLine (FC6_Network.cls FC6_NetworkData.cls) n [c!"--device=t"] obeys_networkLines4_10_object (networkLines4.lines.getD i noLine) :=
  (List.forall_mem_nil _)

theorem obeys_networkLines4_10 : ∀ v, [Version.FC6, Version.F7].contains v = true → Command.Obeys (FC6_Network.cls FC6_NetworkData.cls) networkLines4 v :=
  obeys_of obeys_networkLines4_10_object [0] [] (obeys_networkLines4_10_base _) (all_cons obeys_networkLines4_10_start (List.forall_mem_nil _)) (obeys_networkLines4_10_lines _) (by decide +kernel)

def obeys_networkLines4_11_object (l : Nat) : Ns := [(c!"lineno", .int l), (c!"bootProto", .str c!"dhcp"), (c!"dhcpclass", .str c!""), (c!"device", .str c!"t"), (c!"essid", .str c!""), (c!"ethtool", .str c!""), (c!"gateway", .str c!""), (c!"hostname", .str c!""), (c!"ip", .str c!""), (c!"mtu", .str c!""), (c!"nameserver", .str c!""), (c!"netmask", .str c!""), (c!"nodns", .bool false), (c!"onboot", .bool true), (c!"wepkey", .str c!""), (c!"notksdevice", .bool false), (c!"noipv4", .bool false), (c!"noipv6", .bool false), (c!"ipv6", .str c!"")]

theorem obeys_networkLines4_11_base (n : Str) : Command.FirstBase (F8_Network.cls F8_NetworkData.cls) n [c!"--device=t"] obeys_networkLines4_11_object := by
  intro b b' hb hb' line l; kernel_rfl

theorem obeys_networkLines4_11_start : Command.FirstStart (F8_Network.cls F8_NetworkData.cls) obeys_networkLines4_11_object (networkLines4.start.getD 0 ([], [])).2 := fun _ => .inl ⟨fun _ => rfl, (all_cons (by kernel_rfl) (all_cons (by kernel_rfl) (all_cons (by kernel_rfl) (List.forall_mem_nil _))))⟩

theorem obeys_networkLines4_11_lines (n : Str) : ∀ i ∈ [], Command.FirstLine (F8_Network.cls F8_NetworkData.cls) n [c!"--device=t"] obeys_networkLines4_11_object (networkLines4.lines.getD i noLine) :=
  (List.forall_mem_nil _)

theorem obeys_networkLines4_11 : ∀ v, [Version.F8].contains v = true → Command.Obeys (F8_Network.cls F8_NetworkData.cls) networkLines4 v :=
  obeys_of obeys_networkLines4_11_object [0] [] (obeys_networkLines4_11_base _) (all_cons obeys_networkLines4_11_start (List.forall_mem_nil _)) (obeys_networkLines4_11_lines _) (by decide +kernel)

def obeys_networkLines4_12_object (l : Nat) : Ns := [(c!"lineno", .int l), (c!"bootProto", .str c!"dhcp"), (c!"dhcpclass", .str c!""), (c!"device", .str c!"t"), (c!"essid", .str c!""), (c!"ethtool", .str c!""), (c!"gateway", .str c!""), (c!"hostname", .str c!""), (c!"ip", .str c!""), (c!"mtu", .str c!""), (c!"nameserver", .str c!""), (c!"netmask", .str c!""), (c!"nodns", .bool false), (c!"onboot", .bool true), (c!"wepkey", .str c!"")]

theorem obeys_networkLines4_12_base (n : Str) : Command.FirstBase (FC3_Network.cls FC3_NetworkData.cls) n [c!"--device=t"] obeys_networkLines4_12_object := by
  intro b b' hb hb' line l; kernel_rfl

theorem obeys_networkLines4_12_start : Command.FirstStart (FC3_Network.cls FC3_NetworkData.cls) obeys_networkLines4_12_object (networkLines4.start.getD 0 ([], [])).2 := fun _ => .inl ⟨fun _ => rfl, (all_cons (by kernel_rfl) (all_cons (by kernel_rfl) (all_cons (by kernel_rfl) (List.forall_mem_nil _))))⟩

theorem obeys_networkLines4_12_lines (n : Str) : ∀ i ∈ [], Command.FirstLine (FC3_Network.cls FC3_NetworkData.cls) n [c!"--device=t"] obeys_networkLines4_12_object (networkLines4.lines.getD i noLine) :=
  (List.forall_mem_nil _)

theorem obeys_networkLines4_12 : ∀ v, [Version.FC3].contains v = true → Command.Obeys (FC3_Network.cls FC3_NetworkData.cls) networkLines4 v :=
  obeys_of obeys_networkLines4_12_object [0] [] (obeys_networkLines4_12_base _) (all_cons obeys_networkLines4_12_start (List.forall_mem_nil _)) (obeys_networkLines4_12_lines _) (by decide +kernel)

def obeys_networkLines4_13_object (l : Nat) : Ns := [(c!"lineno", .int l), (c!"bootProto", .str c!"dhcp"), (c!"dhcpclass", .str c!""), (c!"device", .str c!"t"), (c!"essid", .str c!""), (c!"ethtool", .str c!""), (c!"gateway", .str c!""), (c!"hostname", .str c!""), (c!"ip", .str c!""), (c!"mtu", .str c!""), (c!"nameserver", .str c!""), (c!"netmask", .str c!""), (c!"nodns", .bool false), (c!"onboot", .bool true), (c!"wepkey", .str c!""), (c!"notksdevice", .bool false)]

theorem obeys_networkLines4_13_base (n : Str) : Command.FirstBase (FC4_Network.cls FC4_NetworkData.cls) n [c!"--device=t"] obeys_networkLines4_13_object := by
  intro b b' hb hb' line l; kernel_rfl

theorem obeys_networkLines4_13_start : Command.FirstStart (FC4_Network.cls FC4_NetworkData.cls) obeys_networkLines4_13_object (networkLines4.start.getD 0 ([], [])).2 := fun _ => .inl ⟨fun _ => rfl, (all_cons (by kernel_rfl) (all_cons (by kernel_rfl) (all_cons (by kernel_rfl) (List.forall_mem_nil _))))⟩

theorem obeys_networkLines4_13_lines (n : Str) : ∀ i ∈ [], Command.FirstLine (FC4_Network.cls FC4_NetworkData.cls) n [c!"--device=t"] obeys_networkLines4_13_object (networkLines4.lines.getD i noLine) :=
  (List.forall_mem_nil _)

theorem obeys_networkLines4_13 : ∀ v, [Version.FC4, Version.FC5].contains v = true → Command.Obeys (FC4_Network.cls FC4_NetworkData.cls) networkLines4 v :=
  obeys_of obeys_networkLines4_13_object [0] [] (obeys_networkLines4_13_base _) (all_cons obeys_networkLines4_13_start (List.forall_mem_nil _)) (obeys_networkLines4_13_lines _) (by decide +kernel)

def obeys_networkLines4_14_object (l : Nat) : Ns := [(c!"lineno", .int l), (c!"bootProto", .str c!"dhcp"), (c!"dhcpclass", .str c!""), (c!"device", .str c!"t"), (c!"essid", .str c!""), (c!"ethtool", .str c!""), (c!"gateway", .str c!""), (c!"hostname", .str c!""), (c!"ip", .str c!""), (c!"mtu", .str c!""), (c!"nameserver", .str c!""), (c!"netmask", .str c!""), (c!"nodns", .bool false), (c!"onboot", .bool true), (c!"wepkey", .str c!""), (c!"notksdevice", .bool false)]

theorem obeys_networkLines4_14_base (n : Str) : Command.FirstBase (FC3_Network.cls RHEL4_NetworkData.cls) n [c!"--device=t"] obeys_networkLines4_14_object := by
  intro b b' hb hb' line l; kernel_rfl

theorem obeys_networkLines4_14_start : Command.FirstStart (FC3_Network.cls RHEL4_NetworkData.cls) obeys_networkLines4_14_object (networkLines4.start.getD 0 ([], [])).2 := fun _ => .inl ⟨fun _ => rfl, (all_cons (by kernel_rfl) (all_cons (by kernel_rfl) (all_cons (by kernel_rfl) (List.forall_mem_nil _))))⟩

theorem obeys_networkLines4_14_lines (n : Str) : ∀ i ∈ [], Command.FirstLine (FC3_Network.cls RHEL4_NetworkData.cls) n [c!"--device=t"] obeys_networkLines4_14_object (networkLines4.lines.getD i noLine) :=
  (List.forall_mem_nil _)

theorem obeys_networkLines4_14 : ∀ v, [Version.RHEL3].contains v = true → Command.Obeys (FC3_Network.cls RHEL4_NetworkData.cls) networkLines4 v :=
  obeys_of obeys_networkLines4_14_object [0] [] (obeys_networkLines4_14_base _) (all_cons obeys_networkLines4_14_start (List.forall_mem_nil _)) (obeys_networkLines4_14_lines _) (by decide +kernel)

def obeys_networkLines4_15_object (l : Nat) : Ns := [(c!"lineno", .int l), (c!"bootProto", .str c!"dhcp"), (c!"dhcpclass", .str c!""), (c!"device", .str c!"t"), (c!"essid", .str c!""), (c!"ethtool", .str c!""), (c!"gateway", .str c!""), (c!"hostname", .str c!""), (c!"ip", .str c!""), (c!"mtu", .str c!""), (c!"nameserver", .str c!""), (c!"netmask", .str c!""), (c!"nodns", .bool false), (c!"onboot", .bool true), (c!"wepkey", .str c!""), (c!"notksdevice", .bool false)]

theorem obeys_networkLines4_15_base (n : Str) : Command.FirstBase (RHEL4_Network.cls RHEL4_NetworkData.cls) n [c!"--device=t"] obeys_networkLines4_15_object := by
  intro b b' hb hb' line l; kernel_rfl

theorem obeys_networkLines4_15_start : Command.FirstStart (RHEL4_Network.cls RHEL4_NetworkData.cls) obeys_networkLines4_15_object (networkLines4.start.getD 0 ([], [])).2 := fun _ => .inl ⟨fun _ => rfl, (all_cons (by kernel_rfl) (all_cons (by kernel_rfl) (all_cons (by kernel_rfl) (List.forall_mem_nil _))))⟩

theorem obeys_networkLines4_15_lines (n : Str) : ∀ i ∈ [], Command.FirstLine (RHEL4_Network.cls RHEL4_NetworkData.cls) n [c!"--device=t"] obeys_networkLines4_15_object (networkLines4.lines.getD i noLine) :=
  (List.forall_mem_nil _)

theorem obeys_networkLines4_15 : ∀ v, [Version.RHEL4].contains v = true → Command.Obeys (RHEL4_Network.cls RHEL4_NetworkData.cls) networkLines4 v :=
  obeys_of obeys_networkLines4_15_object [0] [] (obeys_networkLines4_15_base _) (all_cons obeys_networkLines4_15_start (List.forall_mem_nil _)) (obeys_networkLines4_15_lines _) (by decide +kernel)

def obeys_networkLines4_16_object (l : Nat) : Ns := [(c!"lineno", .int l), (c!"bootProto", .str c!"dhcp"), (c!"dhcpclass", .str c!""), (c!"device", .str c!"t"), (c!"essid", .str c!""), (c!"ethtool", .str c!""), (c!"gateway", .str c!""), (c!"hostname", .str c!""), (c!"ip", .str c!""), (c!"mtu", .str c!""), (c!"nameserver", .str c!""), (c!"netmask", .str c!""), (c!"nodns", .bool false), (c!"onboot", .bool true), (c!"wepkey", .str c!""), (c!"notksdevice", .bool false), (c!"noipv4", .bool false), (c!"noipv6", .bool false)]

theorem obeys_networkLines4_16_base (n : Str) : Command.FirstBase (RHEL5_Network.cls FC6_NetworkData.cls) n [c!"--device=t"] obeys_networkLines4_16_object := by
  intro b b' hb hb' line l; kernel_rfl

theorem obeys_networkLines4_16_start : Command.FirstStart (RHEL5_Network.cls FC6_NetworkData.cls) obeys_networkLines4_16_object (networkLines4.start.getD 0 ([], [])).2 := fun _ => .inl ⟨fun _ => rfl, (all_cons (by kernel_rfl) (all_cons (by kernel_rfl) (all_cons (by kernel_rfl) (List.forall_mem_nil _))))⟩

theorem obeys_networkLines4_16_lines (n : Str) : ∀ i ∈ [], Command.FirstLine (RHEL5_Network.cls FC6_NetworkData.cls) n [c!"--device=t"] obeys_networkLines4_16_object (networkLines4.lines.getD i noLine) :=
  (List.forall_mem_nil _)

theorem obeys_networkLines4_16 : ∀ v, [Version.RHEL5].contains v = true → Command.Obeys (RHEL5_Network.cls FC6_NetworkData.cls) networkLines4 v :=
  obeys_of obeys_networkLines4_16_object [0] [] (obeys_networkLines4_16_base _) (all_cons obeys_networkLines4_16_start (List.forall_mem_nil _)) (obeys_networkLines4_16_lines _) (by decide +kernel)

def obeys_networkLines4_17_object (l : Nat) : Ns := [(c!"lineno", .int l), (c!"bootProto", .str c!"dhcp"), (c!"dhcpclass", .str c!""), (c!"device", .str c!"t"), (c!"essid", .str c!""), (c!"ethtool", .str c!""), (c!"gateway", .str c!""), (c!"hostname", .str c!""), (c!"ip", .str c!""), (c!"mtu", .str c!""), (c!"nameserver", .str c!""), (c!"netmask", .str c!""), (c!"nodns", .bool false), (c!"onboot", .bool true), (c!"wepkey", .str c!""), (c!"notksdevice", .bool false), (c!"noipv4", .bool false), (c!"noipv6", .bool false), (c!"ipv6", .str c!""), (c!"activate", .none), (c!"nodefroute", .bool false), (c!"vlanid", .str c!""), (c!"bondslaves", .str c!""), (c!"bondopts", .str c!"")]

theorem obeys_networkLines4_17_base (n : Str) : Command.FirstBase (RHEL6_Network.cls RHEL6_NetworkData.cls) n [c!"--device=t"] obeys_networkLines4_17_object := by
  intro b b' hb hb' line l; kernel_rfl

theorem obeys_networkLines4_17_start : Command.FirstStart (RHEL6_Network.cls RHEL6_NetworkData.cls) obeys_networkLines4_17_object (networkLines4.start.getD 0 ([], [])).2 := fun _ => .inl ⟨fun _ => rfl, (all_cons (by kernel_rfl) (all_cons (by kernel_rfl) (all_cons (by kernel_rfl) (List.forall_mem_nil _))))⟩

theorem obeys_networkLines4_17_lines (n : Str) : ∀ i ∈ [3, 5], Command.FirstLine (RHEL6_Network.cls RHEL6_NetworkData.cls) n [c!"--device=t"] obeys_networkLines4_17_object (networkLines4.lines.getD i noLine) :=
  (all_cons (by intro b b' hb hb' x hx line l; kernel_rfl)
    (all_cons (by intro b b' hb hb' x hx line l; kernel_rfl)
    (List.forall_mem_nil _)))

theorem obeys_networkLines4_17 : ∀ v, [Version.RHEL6].contains v = true → Command.Obeys (RHEL6_Network.cls RHEL6_NetworkData.cls) networkLines4 v :=
  obeys_of obeys_networkLines4_17_object [0] [3, 5] (obeys_networkLines4_17_base _) (all_cons obeys_networkLines4_17_start (List.forall_mem_nil _)) (obeys_networkLines4_17_lines _) (by decide +kernel)

def obeys_networkLines4_18_object (l : Nat) : Ns := [(c!"lineno", .int l), (c!"bootProto", .str c!"dhcp"), (c!"dhcpclass", .str c!""), (c!"device", .str c!"t"), (c!"essid", .str c!""), (c!"ethtool", .str c!""), (c!"gateway", .str c!""), (c!"hostname", .str c!""), (c!"ip", .str c!""), (c!"mtu", .str c!""), (c!"nameserver", .str c!""), (c!"netmask", .str c!""), (c!"nodns", .bool false), (c!"onboot", .bool true), (c!"wepkey", .str c!""), (c!"notksdevice", .bool false), (c!"noipv4", .bool false), (c!"noipv6", .bool false), (c!"ipv6", .str c!""), (c!"activate", .none), (c!"nodefroute", .bool false), (c!"wpakey", .str c!""), (c!"bondslaves", .str c!""), (c!"bondopts", .str c!""), (c!"vlanid", .str c!""), (c!"ipv6gateway", .str c!""), (c!"teamslaves", .list []), (c!"teamconfig", .str c!""), (c!"interfacename", .str c!""), (c!"bridgeslaves", .str c!""), (c!"bridgeopts", .str c!""), (c!"bindto", .none)]

theorem obeys_networkLines4_18_base (n : Str) : Command.FirstBase (RHEL7_Network.cls RHEL7_NetworkData.cls) n [c!"--device=t"] obeys_networkLines4_18_object := by
  intro b b' hb hb' line l; kernel_rfl

theorem obeys_networkLines4_18_start : Command.FirstStart (RHEL7_Network.cls RHEL7_NetworkData.cls) obeys_networkLines4_18_object (networkLines4.start.getD 0 ([], [])).2 := fun _ => .inl ⟨fun _ => rfl, (all_cons (by kernel_rfl) (all_cons (by kernel_rfl) (all_cons (by kernel_rfl) (List.forall_mem_nil _))))⟩

theorem obeys_networkLines4_18_lines (n : Str) : ∀ i ∈ [], Command.FirstLine (RHEL7_Network.cls RHEL7_NetworkData.cls) n [c!"--device=t"] obeys_networkLines4_18_object (networkLines4.lines.getD i noLine) :=
  (List.forall_mem_nil _)

theorem obeys_networkLines4_18 : ∀ v, [Version.RHEL7].contains v = true → Command.Obeys (RHEL7_Network.cls RHEL7_NetworkData.cls) networkLines4 v :=
  obeys_of obeys_networkLines4_18_object [0] [] (obeys_networkLines4_18_base _) (all_cons obeys_networkLines4_18_start (List.forall_mem_nil _)) (obeys_networkLines4_18_lines _) (by decide +kernel)

theorem obeys_networkLines4 : networkLines4.Obeyed := by
  unfold CommandLines.Obeyed commandMaps
  exact (all_cons (fun _ c h => by cases h; exact obeys_networkLines4_0 _ rfl)
    (all_cons (fun _ c h => by cases h; exact obeys_networkLines4_0 _ rfl)
    (all_cons (fun _ c h => by cases h; exact obeys_networkLines4_0 _ rfl)
    (all_cons (fun _ c h => by cases h; exact obeys_networkLines4_0 _ rfl)
    (all_cons (fun _ c h => by cases h; exact obeys_networkLines4_0 _ rfl)
    (all_cons (fun _ c h => by cases h; exact obeys_networkLines4_0 _ rfl)
    (all_cons (fun _ c h => by cases h; exact obeys_networkLines4_1 _ rfl)
    (all_cons (fun _ c h => by cases h; exact obeys_networkLines4_1 _ rfl)
    (all_cons (fun _ c h => by cases h; exact obeys_networkLines4_2 _ rfl)
    (all_cons (fun _ c h => by cases h; exact obeys_networkLines4_3 _ rfl)
    (all_cons (fun _ c h => by cases h; exact obeys_networkLines4_4 _ rfl)
    (all_cons (fun _ c h => by cases h; exact obeys_networkLines4_5 _ rfl)
    (all_cons (fun _ c h => by cases h; exact obeys_networkLines4_6 _ rfl)
    (all_cons (fun _ c h => by cases h; exact obeys_networkLines4_6 _ rfl)
    (all_cons (fun _ c h => by cases h; exact obeys_networkLines4_7 _ rfl)
    (all_cons (fun _ c h => by cases h; exact obeys_networkLines4_8 _ rfl)
    (all_cons (fun _ c h => by cases h; exact obeys_networkLines4_8 _ rfl)
    (all_cons (fun _ c h => by cases h; exact obeys_networkLines4_9 _ rfl)
    (all_cons (fun _ c h => by cases h; exact obeys_networkLines4_9 _ rfl)
    (all_cons (fun _ c h => by cases h; exact obeys_networkLines4_9 _ rfl)
    (all_cons (fun _ c h => by cases h; exact obeys_networkLines4_9 _ rfl)
    (all_cons (fun _ c h => by cases h; exact obeys_networkLines4_9 _ rfl)
    (all_cons (fun _ c h => by cases h; exact obeys_networkLines4_9 _ rfl)
    (all_cons (fun _ c h => by cases h; exact obeys_networkLines4_9 _ rfl)
    (all_cons (fun _ c h => by cases h; exact obeys_networkLines4_9 _ rfl)
    (all_cons (fun _ c h => by cases h; exact obeys_networkLines4_10 _ rfl)
    (all_cons (fun _ c h => by cases h; exact obeys_networkLines4_11 _ rfl)
    (all_cons (fun _ c h => by cases h; exact obeys_networkLines4_0 _ rfl)
    (all_cons (fun _ c h => by cases h; exact obeys_networkLines4_12 _ rfl)
    (all_cons (fun _ c h => by cases h; exact obeys_networkLines4_13 _ rfl)
    (all_cons (fun _ c h => by cases h; exact obeys_networkLines4_13 _ rfl)
    (all_cons (fun _ c h => by cases h; exact obeys_networkLines4_10 _ rfl)
    (all_cons (fun _ c h => by cases h; exact obeys_networkLines4_14 _ rfl)
    (all_cons (fun _ c h => by cases h; exact obeys_networkLines4_15 _ rfl)
    (all_cons (fun _ c h => by cases h; exact obeys_networkLines4_16 _ rfl)
    (all_cons (fun _ c h => by cases h; exact obeys_networkLines4_17 _ rfl)
    (all_cons (fun _ c h => by cases h; exact obeys_networkLines4_18 _ rfl)
    (all_cons (fun _ c h => by cases h; exact obeys_networkLines4_9 _ rfl) (List.forall_mem_nil _)))))))))))))))))))))))))))))))))))))))

def obeys_nvdimmLines_0_object (l : Nat) : Ns := [(c!"lineno", .int l), (c!"action", .str c!"use"), (c!"namespace", .str c!"n"), (c!"mode", .str c!"sector"), (c!"sectorsize", .none), (c!"blockdevs", .list [])]

theorem obeys_nvdimmLines_0_base (n : Str) : Command.FirstBase (F28_Nvdimm.cls F28_NvdimmData.cls) n [c!"use", c!"--namespace=n"] obeys_nvdimmLines_0_object := by
  intro b b' hb hb' line l; kernel_rfl

theorem obeys_nvdimmLines_0_start : Command.FirstStart (F28_Nvdimm.cls F28_NvdimmData.cls) obeys_nvdimmLines_0_object (nvdimmLines.start.getD 0 ([], [])).2 := fun _ => .inl ⟨fun _ => rfl, (all_cons (by kernel_rfl) (all_cons (by kernel_rfl) (all_cons (by kernel_rfl) (List.forall_mem_nil _))))⟩

theorem obeys_nvdimmLines_0_lines (n : Str) : ∀ i ∈ [0, 1, 2, 3], Command.FirstLine (F28_Nvdimm.cls F28_NvdimmData.cls) n [c!"use", c!"--namespace=n"] obeys_nvdimmLines_0_object (nvdimmLines.lines.getD i noLine) :=
  (all_cons (by intro b b' hb hb' x hx line l; (cases x with | nil => exact absurd rfl hx | cons a x => kernel_rfl))
    (all_cons (by intro b b' hb hb' x hx line l; (cases x with | nil => exact absurd rfl hx | cons a x => kernel_rfl))
    (all_cons (by intro b b' hb hb' x hx line l; kernel_rfl)
    (all_cons (by intro b b' hb hb' x hx line l; kernel_rfl)
    (List.forall_mem_nil _)))))

theorem obeys_nvdimmLines_0 : ∀ v, [Version.RHEL7, Version.F28, Version.RHEL8, Version.F29, Version.F30, Version.F31, Version.F32, Version.F33, Version.F34].contains v = true → Command.Obeys (F28_Nvdimm.cls F28_NvdimmData.cls) nvdimmLines v :=
  obeys_of obeys_nvdimmLines_0_object [0] [0, 1, 2, 3] (obeys_nvdimmLines_0_base _) (all_cons obeys_nvdimmLines_0_start (List.forall_mem_nil _)) (obeys_nvdimmLines_0_lines _) (by decide +kernel)

theorem obeys_nvdimmLines : nvdimmLines.Obeyed := by
  unfold CommandLines.Obeyed commandMaps
  exact (all_cons (fun hv => absurd hv (by decide))
    (all_cons (fun hv => absurd hv (by decide))
    (all_cons (fun hv => absurd hv (by decide))
    (all_cons (fun hv => absurd hv (by decide))
    (all_cons (fun hv => absurd hv (by decide))
    (all_cons (fun hv => absurd hv (by decide))
    (all_cons (fun hv => absurd hv (by decide))
    (all_cons (fun hv => absurd hv (by decide))
    (all_cons (fun hv => absurd hv (by decide))
    (all_cons (fun hv => absurd hv (by decide))
    (all_cons (fun hv => absurd hv (by decide))
    (all_cons (fun hv => absurd hv (by decide))
    (all_cons (fun hv => absurd hv (by decide))
    (all_cons (fun hv => absurd hv (by decide))
    (all_cons (fun hv => absurd hv (by decide))
    (all_cons (fun hv => absurd hv (by decide))
    (all_cons (fun hv => absurd hv (by decide))
    (all_cons (fun hv => absurd hv (by decide))
    (all_cons (fun _ c h => by cases h; exact obeys_nvdimmLines_0 _ rfl)
    (all_cons (fun _ c h => by cases h; exact obeys_nvdimmLines_0 _ rfl)
    (all_cons (fun _ c h => by cases h; exact obeys_nvdimmLines_0 _ rfl)
    (all_cons (fun _ c h => by cases h; exact obeys_nvdimmLines_0 _ rfl)
    (all_cons (fun _ c h => by cases h; exact obeys_nvdimmLines_0 _ rfl)
    (all_cons (fun _ c h => by cases h; exact obeys_nvdimmLines_0 _ rfl)
    (all_cons (fun _ c h => by cases h; exact obeys_nvdimmLines_0 _ rfl)
    (all_cons (fun hv => absurd hv (by decide))
    (all_cons (fun hv => absurd hv (by decide))
    (all_cons (fun hv => absurd hv (by decide))
    (all_cons (fun hv => absurd hv (by decide))
    (all_cons (fun hv => absurd hv (by decide))
    (all_cons (fun hv => absurd hv (by decide))
    (all_cons (fun hv => absurd hv (by decide))
    (all_cons (fun hv => absurd hv (by decide))
    (all_cons (fun hv => absurd hv (by decide))
    (all_cons (fun hv => absurd hv (by decide))
    (all_cons (fun hv => absurd hv (by decide))
    (all_cons (fun _ c h => by cases h; exact obeys_nvdimmLines_0 _ rfl)
    (all_cons (fun _ c h => by cases h; exact obeys_nvdimmLines_0 _ rfl) (List.forall_mem_nil _)))))))))))))))))))))))))))))))))))))))

def obeys_nvdimmLines2_0_object (l : Nat) : Ns := [(c!"lineno", .int l), (c!"action", .str c!"use"), (c!"namespace", .str c!""), (c!"mode", .str c!"sector"), (c!"sectorsize", .none), (c!"blockdevs", .list [c!"a", c!"b"])]

theorem obeys_nvdimmLines2_0_base (n : Str) : Command.FirstBase (F28_Nvdimm.cls F28_NvdimmData.cls) n [c!"use", c!"--blockdevs=a,b"] obeys_nvdimmLines2_0_object := by
  intro b b' hb hb' line l; kernel_rfl

theorem obeys_nvdimmLines2_0_start : Command.FirstStart (F28_Nvdimm.cls F28_NvdimmData.cls) obeys_nvdimmLines2_0_object (nvdimmLines2.start.getD 0 ([], [])).2 := fun _ => .inl ⟨fun _ => rfl, (all_cons (by kernel_rfl) (all_cons (by kernel_rfl) (all_cons (by kernel_rfl) (List.forall_mem_nil _))))⟩

theorem obeys_nvdimmLines2_0_lines (n : Str) : ∀ i ∈ [0], Command.FirstLine (F28_Nvdimm.cls F28_NvdimmData.cls) n [c!"use", c!"--blockdevs=a,b"] obeys_nvdimmLines2_0_object (nvdimmLines2.lines.getD i noLine) :=
  (all_cons (by intro b b' hb hb' x hx line l; (cases x with | nil => exact absurd rfl hx | cons a x => kernel_rfl))
    (List.forall_mem_nil _))

theorem obeys_nvdimmLines2_0 : ∀ v, [Version.RHEL7, Version.F28, Version.RHEL8, Version.F29, Version.F30, Version.F31, Version.F32, Version.F33, Version.F34].contains v = true → Command.Obeys (F28_Nvdimm.cls F28_NvdimmData.cls) nvdimmLines2 v :=
  obeys_of obeys_nvdimmLines2_0_object [0] [0] (obeys_nvdimmLines2_0_base _) (all_cons obeys_nvdimmLines2_0_start (List.forall_mem_nil _)) (obeys_nvdimmLines2_0_lines _) (by decide +kernel)

theorem obeys_nvdimmLines2 : nvdimmLines2.Obeyed := by
  unfold CommandLines.Obeyed commandMaps
  exact (all_cons (fun hv => absurd hv (by decide))
    (all_cons (fun hv => absurd hv (by decide))
    (all_cons (fun hv => absurd hv (by decide))
    (all_cons (fun hv => absurd hv (by decide))
    (all_cons (fun hv => absurd hv (by decide))
    (all_cons (fun hv => absurd hv (by decide))
    (all_cons (fun hv => absurd hv (by decide))
    (all_cons (fun hv => absurd hv (by decide))
    (all_cons (fun hv => absurd hv (by decide))
    (all_cons (fun hv => absurd hv (by decide))
    (all_cons (fun hv => absurd hv (by decide))
    (all_cons (fun hv => absurd hv (by decide))
    (all_cons (fun hv => absurd hv (by decide))
    (all_cons (fun hv => absurd hv (by decide))
    (all_cons (fun hv => absurd hv (by decide))
    (all_cons (fun hv => absurd hv (by decide))
    (all_cons (fun hv => absurd hv (by decide))
    (all_cons (fun hv => absurd hv (by decide))
    (all_cons (fun _ c h => by cases h; exact obeys_nvdimmLines2_0 _ rfl)
    (all_cons (fun _ c h => by cases h; exact obeys_nvdimmLines2_0 _ rfl)
    (all_cons (fun _ c h => by cases h; exact obeys_nvdimmLines2_0 _ rfl)
    (all_cons (fun _ c h => by cases h; exact obeys_nvdimmLines2_0 _ rfl)
    (all_cons (fun _ c h => by cases h; exact obeys_nvdimmLines2_0 _ rfl)
    (all_cons (fun _ c h => by cases h; exact obeys_nvdimmLines2_0 _ rfl)
    (all_cons (fun _ c h => by cases h; exact obeys_nvdimmLines2_0 _ rfl)
    (all_cons (fun hv => absurd hv (by decide))
    (all_cons (fun hv => absurd hv (by decide))
    (all_cons (fun hv => absurd hv (by decide))
    (all_cons (fun hv => absurd hv (by decide))
    (all_cons (fun hv => absurd hv (by decide))
    (all_cons (fun hv => absurd hv (by decide))
    (all_cons (fun hv => absurd hv (by decide))
    (all_cons (fun hv => absurd hv (by decide))
    (all_cons (fun hv => absurd hv (by decide))
    (all_cons (fun hv => absurd hv (by decide))
    (all_cons (fun hv => absurd hv (by decide))
    (all_cons (fun _ c h => by cases h; exact obeys_nvdimmLines2_0 _ rfl)
    (all_cons (fun _ c h => by cases h; exact obeys_nvdimmLines2_0 _ rfl) (List.forall_mem_nil _)))))))))))))))))))))))))))))))))))))))

def obeys_rescueLines_0_object (_ : Nat) : Ns := [(c!"rescue", .bool true), (c!"nomount", .bool false), (c!"romount", .bool false)]

theorem obeys_rescueLines_0_base (n : Str) : Command.FirstBase (F10_Rescue.cls) n [] obeys_rescueLines_0_object := by
  intro b b' hb hb' line l; kernel_rfl

theorem obeys_rescueLines_0_start : Command.FirstStart (F10_Rescue.cls) obeys_rescueLines_0_object (rescueLines.start.getD 0 ([], [])).2 := fun _ => .inr ⟨fun _ => rfl, by kernel_rfl⟩

theorem obeys_rescueLines_0_lines (n : Str) : ∀ i ∈ [0, 1], Command.FirstLine (F10_Rescue.cls) n [] obeys_rescueLines_0_object (rescueLines.lines.getD i noLine) :=
  (all_cons (by intro b b' hb hb' x hx line l; kernel_rfl)
    (all_cons (by intro b b' hb hb' x hx line l; kernel_rfl)
    (List.forall_mem_nil _)))

theorem obeys_rescueLines_0 : ∀ v, [Version.F10, Version.F11, Version.F12, Version.F13, Version.RHEL6, Version.F14, Version.F15, Version.F16, Version.F17, Version.F18, Version.F19, Version.F20, Version.F21, Version.RHEL7, Version.F22, Version.F23, Version.F24, Version.F25, Version.F26, Version.F27, Version.F28, Version.RHEL8, Version.F29, Version.F30, Version.F31, Version.F32, Version.F33, Version.F34].contains v = true → Command.Obeys (F10_Rescue.cls) rescueLines v :=
  obeys_of obeys_rescueLines_0_object [0] [0, 1] (obeys_rescueLines_0_base _) (all_cons obeys_rescueLines_0_start (List.forall_mem_nil _)) (obeys_rescueLines_0_lines _) (by decide +kernel)

theorem obeys_rescueLines : rescueLines.Obeyed := by
  unfold CommandLines.Obeyed commandMaps
  exact (all_cons (fun _ c h => by cases h; exact obeys_rescueLines_0 _ rfl)
    (all_cons (fun _ c h => by cases h; exact obeys_rescueLines_0 _ rfl)
    (all_cons (fun _ c h => by cases h; exact obeys_rescueLines_0 _ rfl)
    (all_cons (fun _ c h => by cases h; exact obeys_rescueLines_0 _ rfl)
    (all_cons (fun _ c h => by cases h; exact obeys_rescueLines_0 _ rfl)
    (all_cons (fun _ c h => by cases h; exact obeys_rescueLines_0 _ rfl)
    (all_cons (fun _ c h => by cases h; exact obeys_rescueLines_0 _ rfl)
    (all_cons (fun _ c h => by cases h; exact obeys_rescueLines_0 _ rfl)
    (all_cons (fun _ c h => by cases h; exact obeys_rescueLines_0 _ rfl)
    (all_cons (fun _ c h => by cases h; exact obeys_rescueLines_0 _ rfl)
    (all_cons (fun _ c h => by cases h; exact obeys_rescueLines_0 _ rfl)
    (all_cons (fun _ c h => by cases h; exact obeys_rescueLines_0 _ rfl)
    (all_cons (fun _ c h => by cases h; exact obeys_rescueLines_0 _ rfl)
    (all_cons (fun _ c h => by cases h; exact obeys_rescueLines_0 _ rfl)
    (all_cons (fun _ c h => by cases h; exact obeys_rescueLines_0 _ rfl)
    (all_cons (fun _ c h => by cases h; exact obeys_rescueLines_0 _ rfl)
    (all_cons (fun _ c h => by cases h; exact obeys_rescueLines_0 _ rfl)
    (all_cons (fun _ c h => by cases h; exact obeys_rescueLines_0 _ rfl)
    (all_cons (fun _ c h => by cases h; exact obeys_rescueLines_0 _ rfl)
    (all_cons (fun _ c h => by cases h; exact obeys_rescueLines_0 _ rfl)
    (all_cons (fun _ c h => by cases h; exact obeys_rescueLines_0 _ rfl)
    (all_cons (fun _ c h => by cases h; exact obeys_rescueLines_0 _ rfl)
    (all_cons (fun _ c h => by cases h; exact obeys_rescueLines_0 _ rfl)
    (all_cons (fun _ c h => by cases h; exact obeys_rescueLines_0 _ rfl)
    (all_cons (fun _ c h => by cases h; exact obeys_rescueLines_0 _ rfl)
    (all_cons (fun hv => absurd hv (by decide))
    (all_cons (fun hv => absurd hv (by decide))
    (all_cons (fun hv => absurd hv (by decide))
    (all_cons (fun hv => absurd hv (by decide))
    (all_cons (fun hv => absurd hv (by decide))
    (all_cons (fun hv => absurd hv (by decide))
    (all_cons (fun hv => absurd hv (by decide))
    (all_cons (fun hv => absurd hv (by decide))
    (all_cons (fun hv => absurd hv (by decide))
    (all_cons (fun hv => absurd hv (by decide))
    (all_cons (fun _ c h => by cases h; exact obeys_rescueLines_0 _ rfl)
    (all_cons (fun _ c h => by cases h; exact obeys_rescueLines_0 _ rfl)
    (all_cons (fun _ c h => by cases h; exact obeys_rescueLines_0 _ rfl) (List.forall_mem_nil _)))))))))))))))))))))))))))))))))))))))

def obeys_servicesLines_0_object (_ : Nat) : Ns := [(c!"disabled", .list []), (c!"enabled", .list [c!"a"])]

theorem obeys_servicesLines_0_base (n : Str) : Command.FirstBase (FC6_Services.cls) n [c!"--enabled=a"] obeys_servicesLines_0_object := by
  intro b b' hb hb' line l; kernel_rfl

theorem obeys_servicesLines_0_start : Command.FirstStart (FC6_Services.cls) obeys_servicesLines_0_object (servicesLines.start.getD 0 ([], [])).2 := fun _ => .inr ⟨fun _ => rfl, by kernel_rfl⟩

theorem obeys_servicesLines_0_lines (n : Str) : ∀ i ∈ [0], Command.FirstLine (FC6_Services.cls) n [c!"--enabled=a"] obeys_servicesLines_0_object (servicesLines.lines.getD i noLine) :=
  (all_cons (by intro b b' hb hb' x hx line l; kernel_rfl)
    (List.forall_mem_nil _))

theorem obeys_servicesLines_0 : ∀ v, [Version.FC6, Version.RHEL5, Version.F7, Version.F8, Version.F9, Version.F10, Version.F11, Version.F12, Version.F13, Version.RHEL6, Version.F14, Version.F15, Version.F16, Version.F17, Version.F18, Version.F19, Version.F20, Version.F21, Version.RHEL7, Version.F22, Version.F23, Version.F24, Version.F25, Version.F26, Version.F27, Version.F28, Version.RHEL8, Version.F29, Version.F30, Version.F31, Version.F32, Version.F33, Version.F34].contains v = true → Command.Obeys (FC6_Services.cls) servicesLines v :=
  obeys_of obeys_servicesLines_0_object [0] [0] (obeys_servicesLines_0_base _) (all_cons obeys_servicesLines_0_start (List.forall_mem_nil _)) (obeys_servicesLines_0_lines _) (by decide +kernel)

theorem obeys_servicesLines : servicesLines.Obeyed := by
  unfold CommandLines.Obeyed commandMaps
  exact (all_cons (fun _ c h => by cases h; exact obeys_servicesLines_0 _ rfl)
    (all_cons (fun _ c h => by cases h; exact obeys_servicesLines_0 _ rfl)
    (all_cons (fun _ c h => by cases h; exact obeys_servicesLines_0 _ rfl)
    (all_cons (fun _ c h => by cases h; exact obeys_servicesLines_0 _ rfl)
    (all_cons (fun _ c h => by cases h; exact obeys_servicesLines_0 _ rfl)
    (all_cons (fun _ c h => by cases h; exact obeys_servicesLines_0 _ rfl)
    (all_cons (fun _ c h => by cases h; exact obeys_servicesLines_0 _ rfl)
    (all_cons (fun _ c h => by cases h; exact obeys_servicesLines_0 _ rfl)
    (all_cons (fun _ c h => by cases h; exact obeys_servicesLines_0 _ rfl)
    (all_cons (fun _ c h => by cases h; exact obeys_servicesLines_0 _ rfl)
    (all_cons (fun _ c h => by cases h; exact obeys_servicesLines_0 _ rfl)
    (all_cons (fun _ c h => by cases h; exact obeys_servicesLines_0 _ rfl)
    (all_cons (fun _ c h => by cases h; exact obeys_servicesLines_0 _ rfl)
    (all_cons (fun _ c h => by cases h; exact obeys_servicesLines_0 _ rfl)
    (all_cons (fun _ c h => by cases h; exact obeys_servicesLines_0 _ rfl)
    (all_cons (fun _ c h => by cases h; exact obeys_servicesLines_0 _ rfl)
    (all_cons (fun _ c h => by cases h; exact obeys_servicesLines_0 _ rfl)
    (all_cons (fun _ c h => by cases h; exact obeys_servicesLines_0 _ rfl)
    (all_cons (fun _ c h => by cases h; exact obeys_servicesLines_0 _ rfl)
    (all_cons (fun _ c h => by cases h; exact obeys_servicesLines_0 _ rfl)
    (all_cons (fun _ c h => by cases h; exact obeys_servicesLines_0 _ rfl)
    (all_cons (fun _ c h => by cases h; exact obeys_servicesLines_0 _ rfl)
    (all_cons (fun _ c h => by cases h; exact obeys_servicesLines_0 _ rfl)
    (all_cons (fun _ c h => by cases h; exact obeys_servicesLines_0 _ rfl)
    (all_cons (fun _ c h => by cases h; exact obeys_servicesLines_0 _ rfl)
    (all_cons (fun _ c h => by cases h; exact obeys_servicesLines_0 _ rfl)
    (all_cons (fun _ c h => by cases h; exact obeys_servicesLines_0 _ rfl)
    (all_cons (fun _ c h => by cases h; exact obeys_servicesLines_0 _ rfl)
    (all_cons (fun hv => absurd hv (by decide))
    (all_cons (fun hv => absurd hv (by decide))
    (all_cons (fun hv => absurd hv (by decide))
    (all_cons (fun _ c h => by cases h; exact obeys_servicesLines_0 _ rfl)
    (all_cons (fun hv => absurd hv (by decide))
    (all_cons (fun hv => absurd hv (by decide))
    (all_cons (fun _ c h => by cases h; exact obeys_servicesLines_0 _ rfl)
    (all_cons (fun _ c h => by cases h; exact obeys_servicesLines_0 _ rfl)
    (all_cons (fun _ c h => by cases h; exact obeys_servicesLines_0 _ rfl)
    (all_cons (fun _ c h => by cases h; exact obeys_servicesLines_0 _ rfl) (List.forall_mem_nil _)))))))))))))))))))))))))))))))))))))))

def obeys_servicesLines2_0_object (_ : Nat) : Ns := [(c!"disabled", .list [c!"a"]), (c!"enabled", .list [])]

theorem obeys_servicesLines2_0_base (n : Str) : Command.FirstBase (FC6_Services.cls) n [c!"--disabled=a"] obeys_servicesLines2_0_object := by
  intro b b' hb hb' line l; kernel_rfl

theorem obeys_servicesLines2_0_start : Command.FirstStart (FC6_Services.cls) obeys_servicesLines2_0_object (servicesLines2.start.getD 0 ([], [])).2 := fun _ => .inr ⟨fun _ => rfl, by kernel_rfl⟩

theorem obeys_servicesLines2_0_lines (n : Str) : ∀ i ∈ [0], Command.FirstLine (FC6_Services.cls) n [c!"--disabled=a"] obeys_servicesLines2_0_object (servicesLines2.lines.getD i noLine) :=
  (all_cons (by intro b b' hb hb' x hx line l; (cases x with | nil => exact absurd rfl hx | cons a x => kernel_rfl))
    (List.forall_mem_nil _))

theorem obeys_servicesLines2_0 : ∀ v, [Version.FC6, Version.RHEL5, Version.F7, Version.F8, Version.F9, Version.F10, Version.F11, Version.F12, Version.F13, Version.RHEL6, Version.F14, Version.F15, Version.F16, Version.F17, Version.F18, Version.F19, Version.F20, Version.F21, Version.RHEL7, Version.F22, Version.F23, Version.F24, Version.F25, Version.F26, Version.F27, Version.F28, Version.RHEL8, Version.F29, Version.F30, Version.F31, Version.F32, Version.F33, Version.F34].contains v = true → Command.Obeys (FC6_Services.cls) servicesLines2 v :=
  obeys_of obeys_servicesLines2_0_object [0] [0] (obeys_servicesLines2_0_base _) (all_cons obeys_servicesLines2_0_start (List.forall_mem_nil _)) (obeys_servicesLines2_0_lines _) (by decide +kernel)

theorem obeys_servicesLines2 : servicesLines2.Obeyed := by
  unfold CommandLines.Obeyed commandMaps
  exact (all_cons (fun _ c h => by cases h; exact obeys_servicesLines2_0 _ rfl)
    (all_cons (fun _ c h => by cases h; exact obeys_servicesLines2_0 _ rfl)
    (all_cons (fun _ c h => by cases h; exact obeys_servicesLines2_0 _ rfl)
    (all_cons (fun _ c h => by cases h; exact obeys_servicesLines2_0 _ rfl)
    (all_cons (fun _ c h => by cases h; exact obeys_servicesLines2_0 _ rfl)
    (all_cons (fun _ c h => by cases h; exact obeys_servicesLines2_0 _ rfl)
    (all_cons (fun _ c h => by cases h; exact obeys_servicesLines2_0 _ rfl)
    (all_cons (fun _ c h => by cases h; exact obeys_servicesLines2_0 _ rfl)
    (all_cons (fun _ c h => by cases h; exact obeys_servicesLines2_0 _ rfl)
    (all_cons (fun _ c h => by cases h; exact obeys_servicesLines2_0 _ rfl)
    (all_cons (fun _ c h => by cases h; exact obeys_servicesLines2_0 _ rfl)
    (all_cons (fun _ c h => by cases h; exact obeys_servicesLines2_0 _ rfl)
    (all_cons (fun _ c h => by cases h; exact obeys_servicesLines2_0 _ rfl)
    (all_cons (fun _ c h => by cases h; exact obeys_servicesLines2_0 _ rfl)
    (all_cons (fun _ c h => by cases h; exact obeys_servicesLines2_0 _ rfl)
    (all_cons (fun _ c h => by cases h; exact obeys_servicesLines2_0 _ rfl)
    (all_cons (fun _ c h => by cases h; exact obeys_servicesLines2_0 _ rfl)
    (all_cons (fun _ c h => by cases h; exact obeys_servicesLines2_0 _ rfl)
    (all_cons (fun _ c h => by cases h; exact obeys_servicesLines2_0 _ rfl)
    (all_cons (fun _ c h => by cases h; exact obeys_servicesLines2_0 _ rfl)
    (all_cons (fun _ c h => by cases h; exact obeys_servicesLines2_0 _ rfl)
    (all_cons (fun _ c h => by cases h; exact obeys_servicesLines2_0 _ rfl)
    (all_cons (fun _ c h => by cases h; exact obeys_servicesLines2_0 _ rfl)
    (all_cons (fun _ c h => by cases h; exact obeys_servicesLines2_0 _ rfl)
    (all_cons (fun _ c h => by cases h; exact obeys_servicesLines2_0 _ rfl)
    (all_cons (fun _ c h => by cases h; exact obeys_servicesLines2_0 _ rfl)
    (all_cons (fun _ c h => by cases h; exact obeys_servicesLines2_0 _ rfl)
    (all_cons (fun _ c h => by cases h; exact obeys_servicesLines2_0 _ rfl)
    (all_cons (fun hv => absurd hv (by decide))
    (all_cons (fun hv => absurd hv (by decide))
    (all_cons (fun hv => absurd hv (by decide))
    (all_cons (fun _ c h => by cases h; exact obeys_servicesLines2_0 _ rfl)
    (all_cons (fun hv => absurd hv (by decide))
    (all_cons (fun hv => absurd hv (by decide))
    (all_cons (fun _ c h => by cases h; exact obeys_servicesLines2_0 _ rfl)
    (all_cons (fun _ c h => by cases h; exact obeys_servicesLines2_0 _ rfl)
    (all_cons (fun _ c h => by cases h; exact obeys_servicesLines2_0 _ rfl)
    (all_cons (fun _ c h => by cases h; exact obeys_servicesLines2_0 _ rfl) (List.forall_mem_nil _)))))))))))))))))))))))))))))))))))))))

def obeys_textLines_0_object (_ : Nat) : Ns := [(c!"displayMode", .int 2)]

theorem obeys_textLines_0_base : Command.FirstBase (FC3_DisplayMode.cls) c!"text" [] obeys_textLines_0_object := by
  intro b b' hb hb' line l; kernel_rfl

theorem obeys_textLines_0_start : Command.FirstStart (FC3_DisplayMode.cls) obeys_textLines_0_object (textLines.start.getD 0 ([], [])).2 := fun _ => .inr ⟨fun _ => rfl, by kernel_rfl⟩

theorem obeys_textLines_0_lines : ∀ i ∈ [0], Command.FirstLine (FC3_DisplayMode.cls) c!"text" [] obeys_textLines_0_object (textLines.lines.getD i noLine) :=
  (all_cons (by intro b b' hb hb' x hx line l; kernel_rfl)
    (List.forall_mem_nil _))

theorem obeys_textLines_0 : ∀ v, [Version.RHEL3, Version.FC3, Version.RHEL4, Version.FC4, Version.FC5, Version.FC6, Version.RHEL5, Version.F7, Version.F8, Version.F9, Version.F10, Version.F11, Version.F12, Version.F13, Version.RHEL6, Version.F14, Version.F15, Version.F16, Version.F17, Version.F18, Version.F19, Version.F20, Version.F21, Version.RHEL7, Version.F22, Version.F23, Version.F24, Version.F25].contains v = true → Command.Obeys (FC3_DisplayMode.cls) textLines v :=
  obeys_of obeys_textLines_0_object [0] [0] (obeys_textLines_0_base) (all_cons obeys_textLines_0_start (List.forall_mem_nil _)) (obeys_textLines_0_lines) (by decide +kernel)

def obeys_textLines_1_object (_ : Nat) : Ns := [(c!"displayMode", .int 2), (c!"nonInteractive", .bool false)]

theorem obeys_textLines_1_base : Command.FirstBase (F26_DisplayMode.cls) c!"text" [] obeys_textLines_1_object := by
  intro b b' hb hb' line l; kernel_rfl

theorem obeys_textLines_1_start : Command.FirstStart (F26_DisplayMode.cls) obeys_textLines_1_object (textLines.start.getD 0 ([], [])).2 := fun _ => .inr ⟨fun _ => rfl, by kernel_rfl⟩

theorem obeys_textLines_1_lines : ∀ i ∈ [1], Command.FirstLine (F26_DisplayMode.cls) c!"text" [] obeys_textLines_1_object (textLines.lines.getD i noLine) :=
  (all_cons (by intro b b' hb hb' x hx line l; kernel_rfl)
    (List.forall_mem_nil _))

theorem obeys_textLines_1 : ∀ v, [Version.F26, Version.F27, Version.F28, Version.RHEL8, Version.F29, Version.F30, Version.F31, Version.F32, Version.F33, Version.F34].contains v = true → Command.Obeys (F26_DisplayMode.cls) textLines v :=
  obeys_of obeys_textLines_1_object [0] [1] (obeys_textLines_1_base) (all_cons obeys_textLines_1_start (List.forall_mem_nil _)) (obeys_textLines_1_lines) (by decide +kernel)

theorem obeys_textLines : textLines.Obeyed := by
  unfold CommandLines.Obeyed commandMaps
  exact (all_cons (fun _ c h => by cases h; exact obeys_textLines_0 _ rfl)
    (all_cons (fun _ c h => by cases h; exact obeys_textLines_0 _ rfl)
    (all_cons (fun _ c h => by cases h; exact obeys_textLines_0 _ rfl)
    (all_cons (fun _ c h => by cases h; exact obeys_textLines_0 _ rfl)
    (all_cons (fun _ c h => by cases h; exact obeys_textLines_0 _ rfl)
    (all_cons (fun _ c h => by cases h; exact obeys_textLines_0 _ rfl)
    (all_cons (fun _ c h => by cases h; exact obeys_textLines_0 _ rfl)
    (all_cons (fun _ c h => by cases h; exact obeys_textLines_0 _ rfl)
    (all_cons (fun _ c h => by cases h; exact obeys_textLines_0 _ rfl)
    (all_cons (fun _ c h => by cases h; exact obeys_textLines_0 _ rfl)
    (all_cons (fun _ c h => by cases h; exact obeys_textLines_0 _ rfl)
    (all_cons (fun _ c h => by cases h; exact obeys_textLines_0 _ rfl)
    (all_cons (fun _ c h => by cases h; exact obeys_textLines_0 _ rfl)
    (all_cons (fun _ c h => by cases h; exact obeys_textLines_0 _ rfl)
    (all_cons (fun _ c h => by cases h; exact obeys_textLines_0 _ rfl)
    (all_cons (fun _ c h => by cases h; exact obeys_textLines_0 _ rfl)
    (all_cons (fun _ c h => by cases h; exact obeys_textLines_1 _ rfl)
    (all_cons (fun _ c h => by cases h; exact obeys_textLines_1 _ rfl)
    (all_cons (fun _ c h => by cases h; exact obeys_textLines_1 _ rfl)
    (all_cons (fun _ c h => by cases h; exact obeys_textLines_1 _ rfl)
    (all_cons (fun _ c h => by cases h; exact obeys_textLines_1 _ rfl)
    (all_cons (fun _ c h => by cases h; exact obeys_textLines_1 _ rfl)
    (all_cons (fun _ c h => by cases h; exact obeys_textLines_1 _ rfl)
    (all_cons (fun _ c h => by cases h; exact obeys_textLines_1 _ rfl)
    (all_cons (fun _ c h => by cases h; exact obeys_textLines_1 _ rfl)
    (all_cons (fun _ c h => by cases h; exact obeys_textLines_0 _ rfl)
    (all_cons (fun _ c h => by cases h; exact obeys_textLines_0 _ rfl)
    (all_cons (fun _ c h => by cases h; exact obeys_textLines_0 _ rfl)
    (all_cons (fun _ c h => by cases h; exact obeys_textLines_0 _ rfl)
    (all_cons (fun _ c h => by cases h; exact obeys_textLines_0 _ rfl)
    (all_cons (fun _ c h => by cases h; exact obeys_textLines_0 _ rfl)
    (all_cons (fun _ c h => by cases h; exact obeys_textLines_0 _ rfl)
    (all_cons (fun _ c h => by cases h; exact obeys_textLines_0 _ rfl)
    (all_cons (fun _ c h => by cases h; exact obeys_textLines_0 _ rfl)
    (all_cons (fun _ c h => by cases h; exact obeys_textLines_0 _ rfl)
    (all_cons (fun _ c h => by cases h; exact obeys_textLines_0 _ rfl)
    (all_cons (fun _ c h => by cases h; exact obeys_textLines_0 _ rfl)
    (all_cons (fun _ c h => by cases h; exact obeys_textLines_1 _ rfl) (List.forall_mem_nil _)))))))))))))))))))))))))))))))))))))))

def obeys_timesourceLines_0_object (l : Nat) : Ns := [(c!"lineno", .int l), (c!"ntp_server", .str c!"s"), (c!"ntp_pool", .str c!""), (c!"ntp_disable", .bool false), (c!"nts", .bool false)]

theorem obeys_timesourceLines_0_base (n : Str) : Command.FirstBase (F33_Timesource.cls F33_TimesourceData.cls) n [c!"--ntp-server=s"] obeys_timesourceLines_0_object := by
  intro b b' hb hb' line l; kernel_rfl

theorem obeys_timesourceLines_0_start : Command.FirstStart (F33_Timesource.cls F33_TimesourceData.cls) obeys_timesourceLines_0_object (timesourceLines.start.getD 0 ([], [])).2 := fun _ => .inl ⟨fun _ => rfl, (all_cons (by kernel_rfl) (List.forall_mem_nil _))⟩

theorem obeys_timesourceLines_0_lines (n : Str) : ∀ i ∈ [0], Command.FirstLine (F33_Timesource.cls F33_TimesourceData.cls) n [c!"--ntp-server=s"] obeys_timesourceLines_0_object (timesourceLines.lines.getD i noLine) :=
  (all_cons (by intro b b' hb hb' x hx line l; kernel_rfl)
    (List.forall_mem_nil _))

theorem obeys_timesourceLines_0 : ∀ v, [Version.F33, Version.F34].contains v = true → Command.Obeys (F33_Timesource.cls F33_TimesourceData.cls) timesourceLines v :=
  obeys_of obeys_timesourceLines_0_object [0] [0] (obeys_timesourceLines_0_base _) (all_cons obeys_timesourceLines_0_start (List.forall_mem_nil _)) (obeys_timesourceLines_0_lines _) (by decide +kernel)

theorem obeys_timesourceLines : timesourceLines.Obeyed := by
  unfold CommandLines.Obeyed commandMaps
  exact (all_cons (fun hv => absurd hv (by decide))
    (all_cons (fun hv => absurd hv (by decide))
    (all_cons (fun hv => absurd hv (by decide))
    (all_cons (fun hv => absurd hv (by decide))
    (all_cons (fun hv => absurd hv (by decide))
    (all_cons (fun hv => absurd hv (by decide))
    (all_cons (fun hv => absurd hv (by decide))
    (all_cons (fun hv => absurd hv (by decide))
    (all_cons (fun hv => absurd hv (by decide))
    (all_cons (fun hv => absurd hv (by decide))
    (all_cons (fun hv => absurd hv (by decide))
    (all_cons (fun hv => absurd hv (by decide))
    (all_cons (fun hv => absurd hv (by decide))
    (all_cons (fun hv => absurd hv (by decide))
    (all_cons (fun hv => absurd hv (by decide))
    (all_cons (fun hv => absurd hv (by decide))
    (all_cons (fun hv => absurd hv (by decide))
    (all_cons (fun hv => absurd hv (by decide))
    (all_cons (fun hv => absurd hv (by decide))
    (all_cons (fun hv => absurd hv (by decide))
    (all_cons (fun hv => absurd hv (by decide))
    (all_cons (fun hv => absurd hv (by decide))
    (all_cons (fun hv => absurd hv (by decide))
    (all_cons (fun _ c h => by cases h; exact obeys_timesourceLines_0 _ rfl)
    (all_cons (fun _ c h => by cases h; exact obeys_timesourceLines_0 _ rfl)
    (all_cons (fun hv => absurd hv (by decide))
    (all_cons (fun hv => absurd hv (by decide))
    (all_cons (fun hv => absurd hv (by decide))
    (all_cons (fun hv => absurd hv (by decide))
    (all_cons (fun hv => absurd hv (by decide))
    (all_cons (fun hv => absurd hv (by decide))
    (all_cons (fun hv => absurd hv (by decide))
    (all_cons (fun hv => absurd hv (by decide))
    (all_cons (fun hv => absurd hv (by decide))
    (all_cons (fun hv => absurd hv (by decide))
    (all_cons (fun hv => absurd hv (by decide))
    (all_cons (fun hv => absurd hv (by decide))
    (all_cons (fun hv => absurd hv (by decide)) (List.forall_mem_nil _)))))))))))))))))))))))))))))))))))))))

def obeys_timesourceLines2_0_object (l : Nat) : Ns := [(c!"lineno", .int l), (c!"ntp_server", .str c!""), (c!"ntp_pool", .str c!"p"), (c!"ntp_disable", .bool false), (c!"nts", .bool false)]

theorem obeys_timesourceLines2_0_base (n : Str) : Command.FirstBase (F33_Timesource.cls F33_TimesourceData.cls) n [c!"--ntp-pool=p"] obeys_timesourceLines2_0_object := by
  intro b b' hb hb' line l; kernel_rfl

theorem obeys_timesourceLines2_0_start : Command.FirstStart (F33_Timesource.cls F33_TimesourceData.cls) obeys_timesourceLines2_0_object (timesourceLines2.start.getD 0 ([], [])).2 := fun _ => .inl ⟨fun _ => rfl, (all_cons (by kernel_rfl) (List.forall_mem_nil _))⟩

theorem obeys_timesourceLines2_0_lines (n : Str) : ∀ i ∈ [0, 1], Command.FirstLine (F33_Timesource.cls F33_TimesourceData.cls) n [c!"--ntp-pool=p"] obeys_timesourceLines2_0_object (timesourceLines2.lines.getD i noLine) :=
  (all_cons (by intro b b' hb hb' x hx line l; kernel_rfl)
    (all_cons (by intro b b' hb hb' x hx line l; (cases x with | nil => exact absurd rfl hx | cons a x => kernel_rfl))
    (List.forall_mem_nil _)))

theorem obeys_timesourceLines2_0 : ∀ v, [Version.F33, Version.F34].contains v = true → Command.Obeys (F33_Timesource.cls F33_TimesourceData.cls) timesourceLines2 v :=
  obeys_of obeys_timesourceLines2_0_object [0] [0, 1] (obeys_timesourceLines2_0_base _) (all_cons obeys_timesourceLines2_0_start (List.forall_mem_nil _)) (obeys_timesourceLines2_0_lines _) (by decide +kernel)

theorem obeys_timesourceLines2 : timesourceLines2.Obeyed := by
  unfold CommandLines.Obeyed commandMaps
  exact (all_cons (fun hv => absurd hv (by decide))
    (all_cons (fun hv => absurd hv (by decide))
    (all_cons (fun hv => absurd hv (by decide))
    (all_cons (fun hv => absurd hv (by decide))
    (all_cons (fun hv => absurd hv (by decide))
    (all_cons (fun hv => absurd hv (by decide))
    (all_cons (fun hv => absurd hv (by decide))
    (all_cons (fun hv => absurd hv (by decide))
    (all_cons (fun hv => absurd hv (by decide))
    (all_cons (fun hv => absurd hv (by decide))
    (all_cons (fun hv => absurd hv (by decide))
    (all_cons (fun hv => absurd hv (by decide))
    (all_cons (fun hv => absurd hv (by decide))
    (all_cons (fun hv => absurd hv (by decide))
    (all_cons (fun hv => absurd hv (by decide))
    (all_cons (fun hv => absurd hv (by decide))
    (all_cons (fun hv => absurd hv (by decide))
    (all_cons (fun hv => absurd hv (by decide))
    (all_cons (fun hv => absurd hv (by decide))
    (all_cons (fun hv => absurd hv (by decide))
    (all_cons (fun hv => absurd hv (by decide))
    (all_cons (fun hv => absurd hv (by decide))
    (all_cons (fun hv => absurd hv (by decide))
    (all_cons (fun _ c h => by cases h; exact obeys_timesourceLines2_0 _ rfl)
    (all_cons (fun _ c h => by cases h; exact obeys_timesourceLines2_0 _ rfl)
    (all_cons (fun hv => absurd hv (by decide))
    (all_cons (fun hv => absurd hv (by decide))
    (all_cons (fun hv => absurd hv (by decide))
    (all_cons (fun hv => absurd hv (by decide))
    (all_cons (fun hv => absurd hv (by decide))
    (all_cons (fun hv => absurd hv (by decide))
    (all_cons (fun hv => absurd hv (by decide))
    (all_cons (fun hv => absurd hv (by decide))
    (all_cons (fun hv => absurd hv (by decide))
    (all_cons (fun hv => absurd hv (by decide))
    (all_cons (fun hv => absurd hv (by decide))
    (all_cons (fun hv => absurd hv (by decide))
    (all_cons (fun hv => absurd hv (by decide)) (List.forall_mem_nil _)))))))))))))))))))))))))))))))))))))))

def obeys_timesourceLines3_0_object (l : Nat) : Ns := [(c!"lineno", .int l), (c!"ntp_server", .str c!""), (c!"ntp_pool", .str c!""), (c!"ntp_disable", .bool true), (c!"nts", .bool false)]

theorem obeys_timesourceLines3_0_base (n : Str) : Command.FirstBase (F33_Timesource.cls F33_TimesourceData.cls) n [c!"--ntp-disable"] obeys_timesourceLines3_0_object := by
  intro b b' hb hb' line l; kernel_rfl

theorem obeys_timesourceLines3_0_start : Command.FirstStart (F33_Timesource.cls F33_TimesourceData.cls) obeys_timesourceLines3_0_object (timesourceLines3.start.getD 0 ([], [])).2 := fun _ => .inl ⟨fun _ => rfl, (all_cons (by kernel_rfl) (List.forall_mem_nil _))⟩

theorem obeys_timesourceLines3_0_lines (n : Str) : ∀ i ∈ [0, 1], Command.FirstLine (F33_Timesource.cls F33_TimesourceData.cls) n [c!"--ntp-disable"] obeys_timesourceLines3_0_object (timesourceLines3.lines.getD i noLine) :=
  (all_cons (by intro b b' hb hb' x hx line l; kernel_rfl)
    (all_cons (by intro b b' hb hb' x hx line l; (cases x with | nil => exact absurd rfl hx | cons a x => kernel_rfl))
    (List.forall_mem_nil _)))

theorem obeys_timesourceLines3_0 : ∀ v, [Version.F33, Version.F34].contains v = true → Command.Obeys (F33_Timesource.cls F33_TimesourceData.cls) timesourceLines3 v :=
  obeys_of obeys_timesourceLines3_0_object [0] [0, 1] (obeys_timesourceLines3_0_base _) (all_cons obeys_timesourceLines3_0_start (List.forall_mem_nil _)) (obeys_timesourceLines3_0_lines _) (by decide +kernel)

theorem obeys_timesourceLines3 : timesourceLines3.Obeyed := by
  unfold CommandLines.Obeyed commandMaps
  exact (all_cons (fun hv => absurd hv (by decide))
    (all_cons (fun hv => absurd hv (by decide))
    (all_cons (fun hv => absurd hv (by decide))
    (all_cons (fun hv => absurd hv (by decide))
    (all_cons (fun hv => absurd hv (by decide))
    (all_cons (fun hv => absurd hv (by decide))
    (all_cons (fun hv => absurd hv (by decide))
    (all_cons (fun hv => absurd hv (by decide))
    (all_cons (fun hv => absurd hv (by decide))
    (all_cons (fun hv => absurd hv (by decide))
    (all_cons (fun hv => absurd hv (by decide))
    (all_cons (fun hv => absurd hv (by decide))
    (all_cons (fun hv => absurd hv (by decide))
    (all_cons (fun hv => absurd hv (by decide))
    (all_cons (fun hv => absurd hv (by decide))
    (all_cons (fun hv => absurd hv (by decide))
    (all_cons (fun hv => absurd hv (by decide))
    (all_cons (fun hv => absurd hv (by decide))
    (all_cons (fun hv => absurd hv (by decide))
    (all_cons (fun hv => absurd hv (by decide))
    (all_cons (fun hv => absurd hv (by decide))
    (all_cons (fun hv => absurd hv (by decide))
    (all_cons (fun hv => absurd hv (by decide))
    (all_cons (fun _ c h => by cases h; exact obeys_timesourceLines3_0 _ rfl)
    (all_cons (fun _ c h => by cases h; exact obeys_timesourceLines3_0 _ rfl)
    (all_cons (fun hv => absurd hv (by decide))
    (all_cons (fun hv => absurd hv (by decide))
    (all_cons (fun hv => absurd hv (by decide))
    (all_cons (fun hv => absurd hv (by decide))
    (all_cons (fun hv => absurd hv (by decide))
    (all_cons (fun hv => absurd hv (by decide))
    (all_cons (fun hv => absurd hv (by decide))
    (all_cons (fun hv => absurd hv (by decide))
    (all_cons (fun hv => absurd hv (by decide))
    (all_cons (fun hv => absurd hv (by decide))
    (all_cons (fun hv => absurd hv (by decide))
    (all_cons (fun hv => absurd hv (by decide))
    (all_cons (fun hv => absurd hv (by decide)) (List.forall_mem_nil _)))))))))))))))))))))))))))))))))))))))

def obeys_unsupportedHardwareLines_0_object (_ : Nat) : Ns := [(c!"unsupported_hardware", .bool true)]

theorem obeys_unsupportedHardwareLines_0_base (n : Str) : Command.FirstBase (RHEL6_UnsupportedHardware.cls) n [] obeys_unsupportedHardwareLines_0_object := by
  intro b b' hb hb' line l; kernel_rfl

theorem obeys_unsupportedHardwareLines_0_start : Command.FirstStart (RHEL6_UnsupportedHardware.cls) obeys_unsupportedHardwareLines_0_object (unsupportedHardwareLines.start.getD 0 ([], [])).2 := fun _ => .inr ⟨fun _ => rfl, by kernel_rfl⟩

theorem obeys_unsupportedHardwareLines_0_lines (n : Str) : ∀ i ∈ [0], Command.FirstLine (RHEL6_UnsupportedHardware.cls) n [] obeys_unsupportedHardwareLines_0_object (unsupportedHardwareLines.lines.getD i noLine) :=
  (all_cons (by intro b b' hb hb' x hx line l; kernel_rfl)
    (List.forall_mem_nil _))

theorem obeys_unsupportedHardwareLines_0 : ∀ v, [Version.RHEL6, Version.RHEL7].contains v = true → Command.Obeys (RHEL6_UnsupportedHardware.cls) unsupportedHardwareLines v :=
  obeys_of obeys_unsupportedHardwareLines_0_object [0] [0] (obeys_unsupportedHardwareLines_0_base _) (all_cons obeys_unsupportedHardwareLines_0_start (List.forall_mem_nil _)) (obeys_unsupportedHardwareLines_0_lines _) (by decide +kernel)

theorem obeys_unsupportedHardwareLines : unsupportedHardwareLines.Obeyed := by
  unfold CommandLines.Obeyed commandMaps
  exact (all_cons (fun hv => absurd hv (by decide))
    (all_cons (fun hv => absurd hv (by decide))
    (all_cons (fun hv => absurd hv (by decide))
    (all_cons (fun hv => absurd hv (by decide))
    (all_cons (fun hv => absurd hv (by decide))
    (all_cons (fun hv => absurd hv (by decide))
    (all_cons (fun hv => absurd hv (by decide))
    (all_cons (fun hv => absurd hv (by decide))
    (all_cons (fun hv => absurd hv (by decide))
    (all_cons (fun hv => absurd hv (by decide))
    (all_cons (fun hv => absurd hv (by decide))
    (all_cons (fun hv => absurd hv (by decide))
    (all_cons (fun hv => absurd hv (by decide))
    (all_cons (fun hv => absurd hv (by decide))
    (all_cons (fun hv => absurd hv (by decide))
    (all_cons (fun hv => absurd hv (by decide))
    (all_cons (fun hv => absurd hv (by decide))
    (all_cons (fun hv => absurd hv (by decide))
    (all_cons (fun hv => absurd hv (by decide))
    (all_cons (fun hv => absurd hv (by decide))
    (all_cons (fun hv => absurd hv (by decide))
    (all_cons (fun hv => absurd hv (by decide))
    (all_cons (fun hv => absurd hv (by decide))
    (all_cons (fun hv => absurd hv (by decide))
    (all_cons (fun hv => absurd hv (by decide))
    (all_cons (fun hv => absurd hv (by decide))
    (all_cons (fun hv => absurd hv (by decide))
    (all_cons (fun hv => absurd hv (by decide))
    (all_cons (fun hv => absurd hv (by decide))
    (all_cons (fun hv => absurd hv (by decide))
    (all_cons (fun hv => absurd hv (by decide))
    (all_cons (fun hv => absurd hv (by decide))
    (all_cons (fun hv => absurd hv (by decide))
    (all_cons (fun hv => absurd hv (by decide))
    (all_cons (fun hv => absurd hv (by decide))
    (all_cons (fun _ c h => by cases h; exact obeys_unsupportedHardwareLines_0 _ rfl)
    (all_cons (fun _ c h => by cases h; exact obeys_unsupportedHardwareLines_0 _ rfl)
    (all_cons (fun hv => absurd hv (by decide)) (List.forall_mem_nil _)))))))))))))))))))))))))))))))))))))))

def obeys_vncLines_0_object (_ : Nat) : Ns := [(c!"enabled", .bool true), (c!"password", .str c!""), (c!"host", .str c!""), (c!"port", .str c!"")]

theorem obeys_vncLines_0_base (n : Str) : Command.FirstBase (F9_Vnc.cls) n [] obeys_vncLines_0_object := by
  intro b b' hb hb' line l; kernel_rfl

theorem obeys_vncLines_0_start : Command.FirstStart (F9_Vnc.cls) obeys_vncLines_0_object (vncLines.start.getD 0 ([], [])).2 := fun _ => .inr ⟨fun _ => rfl, by kernel_rfl⟩

theorem obeys_vncLines_0_lines (n : Str) : ∀ i ∈ [0, 1, 3, 5], Command.FirstLine (F9_Vnc.cls) n [] obeys_vncLines_0_object (vncLines.lines.getD i noLine) :=
  (all_cons (by intro b b' hb hb' x hx line l; (cases x with | nil => exact absurd rfl hx | cons a x => kernel_rfl))
    (all_cons (by intro b b' hb hb' x hx line l; (cases x with | nil => exact absurd rfl hx | cons a x => kernel_rfl))
    (all_cons (by intro b b' hb hb' x hx line l; (cases x with | nil => exact absurd rfl hx | cons a x => kernel_rfl))
    (all_cons (by intro b b' hb hb' x hx line l; kernel_rfl)
    (List.forall_mem_nil _)))))

theorem obeys_vncLines_0 : ∀ v, [Version.F9, Version.F10, Version.F11, Version.F12, Version.F13, Version.RHEL6, Version.F14, Version.F15, Version.F16, Version.F17, Version.F18, Version.F19, Version.F20, Version.F21, Version.RHEL7, Version.F22, Version.F23, Version.F24, Version.F25, Version.F26, Version.F27, Version.F28, Version.RHEL8, Version.F29, Version.F30, Version.F31, Version.F32, Version.F33, Version.F34].contains v = true → Command.Obeys (F9_Vnc.cls) vncLines v :=
  obeys_of obeys_vncLines_0_object [0] [0, 1, 3, 5] (obeys_vncLines_0_base _) (all_cons obeys_vncLines_0_start (List.forall_mem_nil _)) (obeys_vncLines_0_lines _) (by decide +kernel)

def obeys_vncLines_1_object (_ : Nat) : Ns := [(c!"enabled", .bool true), (c!"password", .str c!""), (c!"host", .str c!""), (c!"port", .str c!"")]

theorem obeys_vncLines_1_base (n : Str) : Command.FirstBase (FC6_Vnc.cls) n [] obeys_vncLines_1_object := by
  intro b b' hb hb' line l; kernel_rfl

theorem obeys_vncLines_1_start : Command.FirstStart (FC6_Vnc.cls) obeys_vncLines_1_object (vncLines.start.getD 0 ([], [])).2 := fun _ => .inr ⟨fun _ => rfl, by kernel_rfl⟩

theorem obeys_vncLines_1_lines (n : Str) : ∀ i ∈ [0, 1, 3, 6], Command.FirstLine (FC6_Vnc.cls) n [] obeys_vncLines_1_object (vncLines.lines.getD i noLine) :=
  (all_cons (by intro b b' hb hb' x hx line l; (cases x with | nil => exact absurd rfl hx | cons a x => kernel_rfl))
    (all_cons (by intro b b' hb hb' x hx line l; (cases x with | nil => exact absurd rfl hx | cons a x => kernel_rfl))
    (all_cons (by intro b b' hb hb' x hx line l; (cases x with | nil => exact absurd rfl hx | cons a x => kernel_rfl))
    (all_cons (by intro b b' hb hb' x hx line l; kernel_rfl)
    (List.forall_mem_nil _)))))

theorem obeys_vncLines_1 : ∀ v, [Version.FC6, Version.RHEL5, Version.F7, Version.F8].contains v = true → Command.Obeys (FC6_Vnc.cls) vncLines v :=
  obeys_of obeys_vncLines_1_object [0] [0, 1, 3, 6] (obeys_vncLines_1_base _) (all_cons obeys_vncLines_1_start (List.forall_mem_nil _)) (obeys_vncLines_1_lines _) (by decide +kernel)

def obeys_vncLines_2_object (_ : Nat) : Ns := [(c!"enabled", .bool true), (c!"password", .str c!""), (c!"connect", .str c!"")]

theorem obeys_vncLines_2_base (n : Str) : Command.FirstBase (FC3_Vnc.cls) n [] obeys_vncLines_2_object := by
  intro b b' hb hb' line l; kernel_rfl

theorem obeys_vncLines_2_start : Command.FirstStart (FC3_Vnc.cls) obeys_vncLines_2_object (vncLines.start.getD 0 ([], [])).2 := fun _ => .inr ⟨fun _ => rfl, by kernel_rfl⟩

theorem obeys_vncLines_2_lines (n : Str) : ∀ i ∈ [0, 2, 4, 7], Command.FirstLine (FC3_Vnc.cls) n [] obeys_vncLines_2_object (vncLines.lines.getD i noLine) :=
  (all_cons (by intro b b' hb hb' x hx line l; (cases x with | nil => exact absurd rfl hx | cons a x => kernel_rfl))
    (all_cons (by intro b b' hb hb' x hx line l; (cases x with | nil => exact absurd rfl hx | cons a x => kernel_rfl))
    (all_cons (by intro b b' hb hb' x hx line l; (cases x with | nil => exact absurd rfl hx | cons a x => kernel_rfl))
    (all_cons (by intro b b' hb hb' x hx line l; kernel_rfl)
    (List.forall_mem_nil _)))))

theorem obeys_vncLines_2 : ∀ v, [Version.RHEL3, Version.FC3, Version.RHEL4, Version.FC4, Version.FC5].contains v = true → Command.Obeys (FC3_Vnc.cls) vncLines v :=
  obeys_of obeys_vncLines_2_object [0] [0, 2, 4, 7] (obeys_vncLines_2_base _) (all_cons obeys_vncLines_2_start (List.forall_mem_nil _)) (obeys_vncLines_2_lines _) (by decide +kernel)

theorem obeys_vncLines : vncLines.Obeyed := by
  unfold CommandLines.Obeyed commandMaps
  exact (all_cons (fun _ c h => by cases h; exact obeys_vncLines_0 _ rfl)
    (all_cons (fun _ c h => by cases h; exact obeys_vncLines_0 _ rfl)
    (all_cons (fun _ c h => by cases h; exact obeys_vncLines_0 _ rfl)
    (all_cons (fun _ c h => by cases h; exact obeys_vncLines_0 _ rfl)
    (all_cons (fun _ c h => by cases h; exact obeys_vncLines_0 _ rfl)
    (all_cons (fun _ c h => by cases h; exact obeys_vncLines_0 _ rfl)
    (all_cons (fun _ c h => by cases h; exact obeys_vncLines_0 _ rfl)
    (all_cons (fun _ c h => by cases h; exact obeys_vncLines_0 _ rfl)
    (all_cons (fun _ c h => by cases h; exact obeys_vncLines_0 _ rfl)
    (all_cons (fun _ c h => by cases h; exact obeys_vncLines_0 _ rfl)
    (all_cons (fun _ c h => by cases h; exact obeys_vncLines_0 _ rfl)
    (all_cons (fun _ c h => by cases h; exact obeys_vncLines_0 _ rfl)
    (all_cons (fun _ c h => by cases h; exact obeys_vncLines_0 _ rfl)
    (all_cons (fun _ c h => by cases h; exact obeys_vncLines_0 _ rfl)
    (all_cons (fun _ c h => by cases h; exact obeys_vncLines_0 _ rfl)
    (all_cons (fun _ c h => by cases h; exact obeys_vncLines_0 _ rfl)
    (all_cons (fun _ c h => by cases h; exact obeys_vncLines_0 _ rfl)
    (all_cons (fun _ c h => by cases h; exact obeys_vncLines_0 _ rfl)
    (all_cons (fun _ c h => by cases h; exact obeys_vncLines_0 _ rfl)
    (all_cons (fun _ c h => by cases h; exact obeys_vncLines_0 _ rfl)
    (all_cons (fun _ c h => by cases h; exact obeys_vncLines_0 _ rfl)
    (all_cons (fun _ c h => by cases h; exact obeys_vncLines_0 _ rfl)
    (all_cons (fun _ c h => by cases h; exact obeys_vncLines_0 _ rfl)
    (all_cons (fun _ c h => by cases h; exact obeys_vncLines_0 _ rfl)
    (all_cons (fun _ c h => by cases h; exact obeys_vncLines_0 _ rfl)
    (all_cons (fun _ c h => by cases h; exact obeys_vncLines_1 _ rfl)
    (all_cons (fun _ c h => by cases h; exact obeys_vncLines_1 _ rfl)
    (all_cons (fun _ c h => by cases h; exact obeys_vncLines_0 _ rfl)
    (all_cons (fun _ c h => by cases h; exact obeys_vncLines_2 _ rfl)
    (all_cons (fun _ c h => by cases h; exact obeys_vncLines_2 _ rfl)
    (all_cons (fun _ c h => by cases h; exact obeys_vncLines_2 _ rfl)
    (all_cons (fun _ c h => by cases h; exact obeys_vncLines_1 _ rfl)
    (all_cons (fun _ c h => by cases h; exact obeys_vncLines_2 _ rfl)
    (all_cons (fun _ c h => by cases h; exact obeys_vncLines_2 _ rfl)
    (all_cons (fun _ c h => by cases h; exact obeys_vncLines_1 _ rfl)
    (all_cons (fun _ c h => by cases h; exact obeys_vncLines_0 _ rfl)
    (all_cons (fun _ c h => by cases h; exact obeys_vncLines_0 _ rfl)
    (all_cons (fun _ c h => by cases h; exact obeys_vncLines_0 _ rfl) (List.forall_mem_nil _)))))))))))))))))))))))))))))))))))))))

end Ks.Cmd
