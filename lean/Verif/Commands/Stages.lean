import Verif.Commands.StageLogic
import Verif.Commands.Maps
/-!
# The deprecated and the removed commands of the versions

Written by `scripts/gen_stages.py`.
-/
namespace Ks.Cmd

theorem deprecatedFC3 : ∀ n ∈ [c!"mouse"], ∃ c, (n, c) ∈ commandMapFC3 ∧ Command.IsDeprecated c := 
  (all_cons ⟨FC3_Mouse.cls, List.mem_of_getElem? (i := 27) rfl, _, _, rfl⟩ (List.forall_mem_nil _))

theorem deprecatedRHEL4 : ∀ n ∈ [c!"mouse"], ∃ c, (n, c) ∈ commandMapRHEL4 ∧ Command.IsDeprecated c := 
  (all_cons ⟨FC3_Mouse.cls, List.mem_of_getElem? (i := 27) rfl, _, _, rfl⟩ (List.forall_mem_nil _))

theorem deprecatedFC4 : ∀ n ∈ [c!"mouse"], ∃ c, (n, c) ∈ commandMapFC4 ∧ Command.IsDeprecated c := 
  (all_cons ⟨FC3_Mouse.cls, List.mem_of_getElem? (i := 28) rfl, _, _, rfl⟩ (List.forall_mem_nil _))

theorem deprecatedFC5 : ∀ n ∈ [c!"langsupport", c!"mouse"], ∃ c, (n, c) ∈ commandMapFC5 ∧ Command.IsDeprecated c := 
  (all_cons ⟨FC5_LangSupport.cls, List.mem_of_getElem? (i := 21) rfl, _, _, rfl⟩
    (all_cons ⟨FC3_Mouse.cls, List.mem_of_getElem? (i := 26) rfl, _, _, rfl⟩ (List.forall_mem_nil _)))

theorem deprecatedFC6 : ∀ n ∈ [c!"langsupport", c!"mouse"], ∃ c, (n, c) ∈ commandMapFC6 ∧ Command.IsDeprecated c := 
  (all_cons ⟨FC5_LangSupport.cls, List.mem_of_getElem? (i := 24) rfl, _, _, rfl⟩
    (all_cons ⟨FC3_Mouse.cls, List.mem_of_getElem? (i := 30) rfl, _, _, rfl⟩ (List.forall_mem_nil _)))

theorem deprecatedRHEL5 : ∀ n ∈ [c!"langsupport", c!"mouse"], ∃ c, (n, c) ∈ commandMapRHEL5 ∧ Command.IsDeprecated c := 
  (all_cons ⟨FC5_LangSupport.cls, List.mem_of_getElem? (i := 25) rfl, _, _, rfl⟩
    (all_cons ⟨FC3_Mouse.cls, List.mem_of_getElem? (i := 31) rfl, _, _, rfl⟩ (List.forall_mem_nil _)))

theorem deprecatedF10 : ∀ n ∈ [c!"monitor"], ∃ c, (n, c) ∈ commandMapF10 ∧ Command.IsDeprecated c := 
  (all_cons ⟨F10_Monitor.cls, List.mem_of_getElem? (i := 28) rfl, _, _, rfl⟩ (List.forall_mem_nil _))

theorem deprecatedF11 : ∀ n ∈ [c!"monitor"], ∃ c, (n, c) ∈ commandMapF11 ∧ Command.IsDeprecated c := 
  (all_cons ⟨F10_Monitor.cls, List.mem_of_getElem? (i := 28) rfl, _, _, rfl⟩ (List.forall_mem_nil _))

theorem deprecatedF12 : ∀ n ∈ [c!"monitor"], ∃ c, (n, c) ∈ commandMapF12 ∧ Command.IsDeprecated c := 
  (all_cons ⟨F10_Monitor.cls, List.mem_of_getElem? (i := 30) rfl, _, _, rfl⟩ (List.forall_mem_nil _))

theorem deprecatedF13 : ∀ n ∈ [c!"monitor"], ∃ c, (n, c) ∈ commandMapF13 ∧ Command.IsDeprecated c := 
  (all_cons ⟨F10_Monitor.cls, List.mem_of_getElem? (i := 30) rfl, _, _, rfl⟩ (List.forall_mem_nil _))

theorem deprecatedRHEL6 : ∀ n ∈ [c!"monitor"], ∃ c, (n, c) ∈ commandMapRHEL6 ∧ Command.IsDeprecated c := 
  (all_cons ⟨F10_Monitor.cls, List.mem_of_getElem? (i := 31) rfl, _, _, rfl⟩ (List.forall_mem_nil _))

theorem deprecatedF14 : ∀ n ∈ [c!"interactive", c!"monitor"], ∃ c, (n, c) ∈ commandMapF14 ∧ Command.IsDeprecated c := 
  (all_cons ⟨F14_Interactive.cls, List.mem_of_getElem? (i := 21) rfl, _, _, rfl⟩
    (all_cons ⟨F10_Monitor.cls, List.mem_of_getElem? (i := 30) rfl, _, _, rfl⟩ (List.forall_mem_nil _)))

theorem deprecatedF15 : ∀ n ∈ [c!"monitor"], ∃ c, (n, c) ∈ commandMapF15 ∧ Command.IsDeprecated c := 
  (all_cons ⟨F10_Monitor.cls, List.mem_of_getElem? (i := 30) rfl, _, _, rfl⟩ (List.forall_mem_nil _))

theorem deprecatedF16 : ∀ n ∈ [c!"monitor"], ∃ c, (n, c) ∈ commandMapF16 ∧ Command.IsDeprecated c := 
  (all_cons ⟨F10_Monitor.cls, List.mem_of_getElem? (i := 29) rfl, _, _, rfl⟩ (List.forall_mem_nil _))

theorem deprecatedF17 : ∀ n ∈ [c!"monitor"], ∃ c, (n, c) ∈ commandMapF17 ∧ Command.IsDeprecated c := 
  (all_cons ⟨F10_Monitor.cls, List.mem_of_getElem? (i := 30) rfl, _, _, rfl⟩ (List.forall_mem_nil _))

theorem deprecatedF20 : ∀ n ∈ [c!"upgrade"], ∃ c, (n, c) ∈ commandMapF20 ∧ Command.IsDeprecated c := 
  (all_cons ⟨F20_Upgrade.cls, List.mem_of_getElem? (i := 52) rfl, _, _, rfl⟩ (List.forall_mem_nil _))

theorem deprecatedF21 : ∀ n ∈ [c!"upgrade"], ∃ c, (n, c) ∈ commandMapF21 ∧ Command.IsDeprecated c := 
  (all_cons ⟨F20_Upgrade.cls, List.mem_of_getElem? (i := 53) rfl, _, _, rfl⟩ (List.forall_mem_nil _))

theorem deprecatedRHEL7 : ∀ n ∈ [c!"upgrade"], ∃ c, (n, c) ∈ commandMapRHEL7 ∧ Command.IsDeprecated c := 
  (all_cons ⟨F20_Upgrade.cls, List.mem_of_getElem? (i := 58) rfl, _, _, rfl⟩ (List.forall_mem_nil _))

theorem deprecatedF22 : ∀ n ∈ [c!"upgrade"], ∃ c, (n, c) ∈ commandMapF22 ∧ Command.IsDeprecated c := 
  (all_cons ⟨F20_Upgrade.cls, List.mem_of_getElem? (i := 54) rfl, _, _, rfl⟩ (List.forall_mem_nil _))

theorem deprecatedF23 : ∀ n ∈ [c!"upgrade"], ∃ c, (n, c) ∈ commandMapF23 ∧ Command.IsDeprecated c := 
  (all_cons ⟨F20_Upgrade.cls, List.mem_of_getElem? (i := 55) rfl, _, _, rfl⟩ (List.forall_mem_nil _))

theorem deprecatedF24 : ∀ n ∈ [c!"device", c!"dmraid", c!"multipath", c!"upgrade"], ∃ c, (n, c) ∈ commandMapF24 ∧ Command.IsDeprecated c := 
  (all_cons ⟨F24_Device.cls, List.mem_of_getElem? (i := 9) rfl, _, _, rfl⟩
    (all_cons ⟨F24_DmRaid.cls, List.mem_of_getElem? (i := 11) rfl, _, _, rfl⟩
    (all_cons ⟨F24_MultiPath.cls, List.mem_of_getElem? (i := 32) rfl, _, _, rfl⟩
    (all_cons ⟨F20_Upgrade.cls, List.mem_of_getElem? (i := 55) rfl, _, _, rfl⟩ (List.forall_mem_nil _)))))

theorem deprecatedF25 : ∀ n ∈ [c!"device", c!"dmraid", c!"multipath", c!"upgrade"], ∃ c, (n, c) ∈ commandMapF25 ∧ Command.IsDeprecated c := 
  (all_cons ⟨F24_Device.cls, List.mem_of_getElem? (i := 9) rfl, _, _, rfl⟩
    (all_cons ⟨F24_DmRaid.cls, List.mem_of_getElem? (i := 11) rfl, _, _, rfl⟩
    (all_cons ⟨F24_MultiPath.cls, List.mem_of_getElem? (i := 32) rfl, _, _, rfl⟩
    (all_cons ⟨F20_Upgrade.cls, List.mem_of_getElem? (i := 55) rfl, _, _, rfl⟩ (List.forall_mem_nil _)))))

theorem deprecatedF26 : ∀ n ∈ [c!"device", c!"dmraid", c!"multipath", c!"upgrade"], ∃ c, (n, c) ∈ commandMapF26 ∧ Command.IsDeprecated c := 
  (all_cons ⟨F24_Device.cls, List.mem_of_getElem? (i := 9) rfl, _, _, rfl⟩
    (all_cons ⟨F24_DmRaid.cls, List.mem_of_getElem? (i := 11) rfl, _, _, rfl⟩
    (all_cons ⟨F24_MultiPath.cls, List.mem_of_getElem? (i := 32) rfl, _, _, rfl⟩
    (all_cons ⟨F20_Upgrade.cls, List.mem_of_getElem? (i := 56) rfl, _, _, rfl⟩ (List.forall_mem_nil _)))))

theorem deprecatedF27 : ∀ n ∈ [c!"device", c!"dmraid", c!"multipath", c!"upgrade"], ∃ c, (n, c) ∈ commandMapF27 ∧ Command.IsDeprecated c := 
  (all_cons ⟨F24_Device.cls, List.mem_of_getElem? (i := 9) rfl, _, _, rfl⟩
    (all_cons ⟨F24_DmRaid.cls, List.mem_of_getElem? (i := 11) rfl, _, _, rfl⟩
    (all_cons ⟨F24_MultiPath.cls, List.mem_of_getElem? (i := 33) rfl, _, _, rfl⟩
    (all_cons ⟨F20_Upgrade.cls, List.mem_of_getElem? (i := 57) rfl, _, _, rfl⟩ (List.forall_mem_nil _)))))

theorem deprecatedF28 : ∀ n ∈ [c!"device", c!"dmraid", c!"multipath", c!"upgrade"], ∃ c, (n, c) ∈ commandMapF28 ∧ Command.IsDeprecated c := 
  (all_cons ⟨F24_Device.cls, List.mem_of_getElem? (i := 10) rfl, _, _, rfl⟩
    (all_cons ⟨F24_DmRaid.cls, List.mem_of_getElem? (i := 12) rfl, _, _, rfl⟩
    (all_cons ⟨F24_MultiPath.cls, List.mem_of_getElem? (i := 35) rfl, _, _, rfl⟩
    (all_cons ⟨F20_Upgrade.cls, List.mem_of_getElem? (i := 60) rfl, _, _, rfl⟩ (List.forall_mem_nil _)))))

theorem deprecatedRHEL8 : ∀ n ∈ [c!"btrfs", c!"device", c!"deviceprobe", c!"dmraid", c!"install", c!"multipath"], ∃ c, (n, c) ∈ commandMapRHEL8 ∧ Command.IsDeprecated c := 
  (all_cons ⟨RHEL8_BTRFS.cls, List.mem_of_getElem? (i := 6) rfl, _, _, rfl⟩
    (all_cons ⟨F24_Device.cls, List.mem_of_getElem? (i := 10) rfl, _, _, rfl⟩
    (all_cons ⟨F29_DeviceProbe.cls, List.mem_of_getElem? (i := 11) rfl, _, _, rfl⟩
    (all_cons ⟨F24_DmRaid.cls, List.mem_of_getElem? (i := 12) rfl, _, _, rfl⟩
    (all_cons ⟨F29_Install.cls, List.mem_of_getElem? (i := 25) rfl, _, _, rfl⟩
    (all_cons ⟨F24_MultiPath.cls, List.mem_of_getElem? (i := 36) rfl, _, _, rfl⟩ (List.forall_mem_nil _)))))))

theorem deprecatedF29 : ∀ n ∈ [c!"device", c!"deviceprobe", c!"dmraid", c!"install", c!"multipath"], ∃ c, (n, c) ∈ commandMapF29 ∧ Command.IsDeprecated c := 
  (all_cons ⟨F24_Device.cls, List.mem_of_getElem? (i := 10) rfl, _, _, rfl⟩
    (all_cons ⟨F29_DeviceProbe.cls, List.mem_of_getElem? (i := 11) rfl, _, _, rfl⟩
    (all_cons ⟨F24_DmRaid.cls, List.mem_of_getElem? (i := 12) rfl, _, _, rfl⟩
    (all_cons ⟨F29_Install.cls, List.mem_of_getElem? (i := 25) rfl, _, _, rfl⟩
    (all_cons ⟨F24_MultiPath.cls, List.mem_of_getElem? (i := 36) rfl, _, _, rfl⟩ (List.forall_mem_nil _))))))

theorem deprecatedF30 : ∀ n ∈ [c!"device", c!"deviceprobe", c!"dmraid", c!"install", c!"multipath"], ∃ c, (n, c) ∈ commandMapF30 ∧ Command.IsDeprecated c := 
  (all_cons ⟨F24_Device.cls, List.mem_of_getElem? (i := 10) rfl, _, _, rfl⟩
    (all_cons ⟨F29_DeviceProbe.cls, List.mem_of_getElem? (i := 11) rfl, _, _, rfl⟩
    (all_cons ⟨F24_DmRaid.cls, List.mem_of_getElem? (i := 12) rfl, _, _, rfl⟩
    (all_cons ⟨F29_Install.cls, List.mem_of_getElem? (i := 25) rfl, _, _, rfl⟩
    (all_cons ⟨F24_MultiPath.cls, List.mem_of_getElem? (i := 36) rfl, _, _, rfl⟩ (List.forall_mem_nil _))))))

theorem deprecatedF31 : ∀ n ∈ [c!"device", c!"deviceprobe", c!"dmraid", c!"install", c!"multipath"], ∃ c, (n, c) ∈ commandMapF31 ∧ Command.IsDeprecated c := 
  (all_cons ⟨F24_Device.cls, List.mem_of_getElem? (i := 10) rfl, _, _, rfl⟩
    (all_cons ⟨F29_DeviceProbe.cls, List.mem_of_getElem? (i := 11) rfl, _, _, rfl⟩
    (all_cons ⟨F24_DmRaid.cls, List.mem_of_getElem? (i := 12) rfl, _, _, rfl⟩
    (all_cons ⟨F29_Install.cls, List.mem_of_getElem? (i := 25) rfl, _, _, rfl⟩
    (all_cons ⟨F24_MultiPath.cls, List.mem_of_getElem? (i := 36) rfl, _, _, rfl⟩ (List.forall_mem_nil _))))))

theorem deprecatedF32 : ∀ n ∈ [c!"device", c!"deviceprobe", c!"dmraid", c!"install", c!"multipath"], ∃ c, (n, c) ∈ commandMapF32 ∧ Command.IsDeprecated c := 
  (all_cons ⟨F24_Device.cls, List.mem_of_getElem? (i := 10) rfl, _, _, rfl⟩
    (all_cons ⟨F29_DeviceProbe.cls, List.mem_of_getElem? (i := 11) rfl, _, _, rfl⟩
    (all_cons ⟨F24_DmRaid.cls, List.mem_of_getElem? (i := 12) rfl, _, _, rfl⟩
    (all_cons ⟨F29_Install.cls, List.mem_of_getElem? (i := 25) rfl, _, _, rfl⟩
    (all_cons ⟨F24_MultiPath.cls, List.mem_of_getElem? (i := 36) rfl, _, _, rfl⟩ (List.forall_mem_nil _))))))

theorem deprecatedF33 : ∀ n ∈ [c!"device", c!"deviceprobe", c!"dmraid", c!"install", c!"multipath"], ∃ c, (n, c) ∈ commandMapF33 ∧ Command.IsDeprecated c := 
  (all_cons ⟨F24_Device.cls, List.mem_of_getElem? (i := 10) rfl, _, _, rfl⟩
    (all_cons ⟨F29_DeviceProbe.cls, List.mem_of_getElem? (i := 11) rfl, _, _, rfl⟩
    (all_cons ⟨F24_DmRaid.cls, List.mem_of_getElem? (i := 12) rfl, _, _, rfl⟩
    (all_cons ⟨F29_Install.cls, List.mem_of_getElem? (i := 25) rfl, _, _, rfl⟩
    (all_cons ⟨F24_MultiPath.cls, List.mem_of_getElem? (i := 36) rfl, _, _, rfl⟩ (List.forall_mem_nil _))))))

theorem deprecatedF34 : ∀ n ∈ [c!"autostep", c!"method"], ∃ c, (n, c) ∈ commandMapF34 ∧ Command.IsDeprecated c := 
  (all_cons ⟨F34_AutoStep.cls, List.mem_of_getElem? (i := 4) rfl, _, _, rfl⟩
    (all_cons ⟨F34_Method.cls, List.mem_of_getElem? (i := 34) rfl, _, _, rfl⟩ (List.forall_mem_nil _)))

theorem deprecated_table : ∀ p ∈ deprecatedIn, ∀ n ∈ p.2, ∃ c, (n, c) ∈ commandMap p.1 ∧ Command.IsDeprecated c :=
  (all_cons deprecatedFC3
    (all_cons deprecatedRHEL4
    (all_cons deprecatedFC4
    (all_cons deprecatedFC5
    (all_cons deprecatedFC6
    (all_cons deprecatedRHEL5
    (all_cons deprecatedF10
    (all_cons deprecatedF11
    (all_cons deprecatedF12
    (all_cons deprecatedF13
    (all_cons deprecatedRHEL6
    (all_cons deprecatedF14
    (all_cons deprecatedF15
    (all_cons deprecatedF16
    (all_cons deprecatedF17
    (all_cons deprecatedF20
    (all_cons deprecatedF21
    (all_cons deprecatedRHEL7
    (all_cons deprecatedF22
    (all_cons deprecatedF23
    (all_cons deprecatedF24
    (all_cons deprecatedF25
    (all_cons deprecatedF26
    (all_cons deprecatedF27
    (all_cons deprecatedF28
    (all_cons deprecatedRHEL8
    (all_cons deprecatedF29
    (all_cons deprecatedF30
    (all_cons deprecatedF31
    (all_cons deprecatedF32
    (all_cons deprecatedF33
    (all_cons deprecatedF34 (List.forall_mem_nil _)))))))))))))))))))))))))))))))))

theorem removedFC4 : ∀ n ∈ [c!"lilo", c!"lilocheck"], ∃ c, (n, c) ∈ commandMapFC4 ∧ Command.IsRemoved c := 
  (all_cons ⟨FC4_Lilo.cls, List.mem_of_getElem? (i := 22) rfl, _, _, rfl⟩
    (all_cons ⟨FC4_LiloCheck.cls, List.mem_of_getElem? (i := 23) rfl, _, _, rfl⟩ (List.forall_mem_nil _)))

theorem removedF7 : ∀ n ∈ [c!"langsupport", c!"mouse"], ∃ c, (n, c) ∈ commandMapF7 ∧ Command.IsRemoved c := 
  (all_cons ⟨F7_LangSupport.cls, List.mem_of_getElem? (i := 24) rfl, _, _, rfl⟩
    (all_cons ⟨F7_Mouse.cls, List.mem_of_getElem? (i := 30) rfl, _, _, rfl⟩ (List.forall_mem_nil _)))

theorem removedF15 : ∀ n ∈ [c!"interactive"], ∃ c, (n, c) ∈ commandMapF15 ∧ Command.IsRemoved c := 
  (all_cons ⟨F15_Interactive.cls, List.mem_of_getElem? (i := 21) rfl, _, _, rfl⟩ (List.forall_mem_nil _))

theorem removedF18 : ∀ n ∈ [c!"monitor"], ∃ c, (n, c) ∈ commandMapF18 ∧ Command.IsRemoved c := 
  (all_cons ⟨F18_Monitor.cls, List.mem_of_getElem? (i := 30) rfl, _, _, rfl⟩ (List.forall_mem_nil _))

theorem removedF29 : ∀ n ∈ [c!"upgrade"], ∃ c, (n, c) ∈ commandMapF29 ∧ Command.IsRemoved c := 
  (all_cons ⟨F29_Upgrade.cls, List.mem_of_getElem? (i := 61) rfl, _, _, rfl⟩ (List.forall_mem_nil _))

theorem removedF34 : ∀ n ∈ [c!"device", c!"deviceprobe", c!"dmraid", c!"install", c!"multipath"], ∃ c, (n, c) ∈ commandMapF34 ∧ Command.IsRemoved c := 
  (all_cons ⟨F34_Device.cls, List.mem_of_getElem? (i := 10) rfl, _, _, rfl⟩
    (all_cons ⟨F34_DeviceProbe.cls, List.mem_of_getElem? (i := 11) rfl, _, _, rfl⟩
    (all_cons ⟨F34_DmRaid.cls, List.mem_of_getElem? (i := 12) rfl, _, _, rfl⟩
    (all_cons ⟨F34_Install.cls, List.mem_of_getElem? (i := 25) rfl, _, _, rfl⟩
    (all_cons ⟨F34_MultiPath.cls, List.mem_of_getElem? (i := 36) rfl, _, _, rfl⟩ (List.forall_mem_nil _))))))

theorem removed_table : ∀ p ∈ removedIn, ∀ n ∈ p.2, ∃ c, (n, c) ∈ commandMap p.1 ∧ Command.IsRemoved c :=
  (all_cons removedFC4
    (all_cons removedF7
    (all_cons removedF15
    (all_cons removedF18
    (all_cons removedF29
    (all_cons removedF34 (List.forall_mem_nil _)))))))

end Ks.Cmd
