import Verif.Commands.FramedLogic
import Verif.Commands.NormalClasses
/-!
# The text of a data list is a comment and a line for every object, class by class

Written by `scripts/gen_framed.py`.
-/
set_option linter.unusedTactic false
set_option linter.unreachableTactic false

namespace Ks.Cmd

theorem framed_F9_Partition_F9_PartData : (F9_Partition.cls F9_PartData.cls).Framed := list_framed (o := FC3_PartData.strOut F9_PartData.args) (fun _ => rfl) (by first | exact .inl rfl | exact .inr ⟨_, by decide, rfl⟩) (by decide +kernel)

theorem framed_F11_Partition_F11_PartData : (F11_Partition.cls F11_PartData.cls).Framed := list_framed (o := FC3_PartData.strOut F9_PartData.args) (fun _ => rfl) (by first | exact .inl rfl | exact .inr ⟨_, by decide, rfl⟩) (by decide +kernel)

theorem framed_F12_Partition_F12_PartData : (F12_Partition.cls F12_PartData.cls).Framed := list_framed (o := FC3_PartData.strOut F12_PartData.args) (fun _ => rfl) (by first | exact .inl rfl | exact .inr ⟨_, by decide, rfl⟩) (by decide +kernel)

theorem framed_F14_Partition_F14_PartData : (F14_Partition.cls F14_PartData.cls).Framed := list_framed (o := FC3_PartData.strOut F12_PartData.args) (fun _ => rfl) (by first | exact .inl rfl | exact .inr ⟨_, by decide, rfl⟩) (by decide +kernel)

theorem framed_F14_Partition_F17_PartData : (F14_Partition.cls F17_PartData.cls).Framed := list_framed (o := FC3_PartData.strOut F17_PartData.args) (fun _ => rfl) (by first | exact .inl rfl | exact .inr ⟨_, by decide, rfl⟩) (by decide +kernel)

theorem framed_F17_Partition_F17_PartData : (F17_Partition.cls F17_PartData.cls).Framed := list_framed (o := FC3_PartData.strOut F17_PartData.args) (fun _ => rfl) (by first | exact .inl rfl | exact .inr ⟨_, by decide, rfl⟩) (by decide +kernel)

theorem framed_F18_Partition_F18_PartData : (F18_Partition.cls F18_PartData.cls).Framed := list_framed (o := FC3_PartData.strOut F18_PartData.args) (fun _ => rfl) (by first | exact .inl rfl | exact .inr ⟨_, by decide, rfl⟩) (by decide +kernel)

theorem framed_F20_Partition_F18_PartData : (F20_Partition.cls F18_PartData.cls).Framed := list_framed (o := FC3_PartData.strOut F18_PartData.args) (fun _ => rfl) (by first | exact .inl rfl | exact .inr ⟨_, by decide, rfl⟩) (by decide +kernel)

theorem framed_F23_Partition_F23_PartData : (F23_Partition.cls F23_PartData.cls).Framed := list_framed (o := FC3_PartData.strOut F23_PartData.args) (fun _ => rfl) (by first | exact .inl rfl | exact .inr ⟨_, by decide, rfl⟩) (by decide +kernel)

theorem framed_F29_Partition_F29_PartData : (F29_Partition.cls F29_PartData.cls).Framed := list_framed (o := FC3_PartData.strOut F29_PartData.args) (fun _ => rfl) (by first | exact .inl rfl | exact .inr ⟨_, by decide, rfl⟩) (by decide +kernel)

theorem framed_F34_Partition_F29_PartData : (F34_Partition.cls F29_PartData.cls).Framed := list_framed (o := FC3_PartData.strOut F29_PartData.args) (fun _ => rfl) (by first | exact .inl rfl | exact .inr ⟨_, by decide, rfl⟩) (by decide +kernel)

theorem framed_FC4_Partition_FC4_PartData : (FC4_Partition.cls FC4_PartData.cls).Framed := list_framed (o := FC3_PartData.strOut FC4_PartData.args) (fun _ => rfl) (by first | exact .inl rfl | exact .inr ⟨_, by decide, rfl⟩) (by decide +kernel)

theorem framed_FC3_Partition_FC3_PartData : (FC3_Partition.cls FC3_PartData.cls).Framed := list_framed (o := FC3_PartData.strOut FC3_PartData.args) (fun _ => rfl) (by first | exact .inl rfl | exact .inr ⟨_, by decide, rfl⟩) (by decide +kernel)

theorem framed_RHEL5_Partition_RHEL5_PartData : (RHEL5_Partition.cls RHEL5_PartData.cls).Framed := list_framed (o := FC3_PartData.strOut RHEL5_PartData.args) (fun _ => rfl) (by first | exact .inl rfl | exact .inr ⟨_, by decide, rfl⟩) (by decide +kernel)

theorem framed_RHEL6_Partition_RHEL6_PartData : (RHEL6_Partition.cls RHEL6_PartData.cls).Framed := list_framed (o := FC3_PartData.strOut RHEL6_PartData.args) (fun _ => rfl) (by first | exact .inl rfl | exact .inr ⟨_, by decide, rfl⟩) (by decide +kernel)

theorem framed_RHEL7_Partition_RHEL7_PartData : (RHEL7_Partition.cls RHEL7_PartData.cls).Framed := list_framed (o := FC3_PartData.strOut F23_PartData.args) (fun _ => rfl) (by first | exact .inl rfl | exact .inr ⟨_, by decide, rfl⟩) (by decide +kernel)

theorem framed_RHEL8_Partition_RHEL8_PartData : (RHEL8_Partition.cls RHEL8_PartData.cls).Framed := list_framed (o := FC3_PartData.strOut F29_PartData.args) (fun _ => rfl) (by first | exact .inl rfl | exact .inr ⟨_, by decide, rfl⟩) (by decide +kernel)

theorem framed_F9_LogVol_F9_LogVolData : (F9_LogVol.cls F9_LogVolData.cls).Framed := list_framed (o := FC3_LogVolData.strOut F9_LogVolData.args) (fun _ => rfl) (by first | exact .inl rfl | exact .inr ⟨_, by decide, rfl⟩) (by decide +kernel)

theorem framed_F12_LogVol_F12_LogVolData : (F12_LogVol.cls F12_LogVolData.cls).Framed := list_framed (o := FC3_LogVolData.strOut F12_LogVolData.args) (fun _ => rfl) (by first | exact .inl rfl | exact .inr ⟨_, by decide, rfl⟩) (by decide +kernel)

theorem framed_F14_LogVol_F14_LogVolData : (F14_LogVol.cls F14_LogVolData.cls).Framed := list_framed (o := FC3_LogVolData.strOut F12_LogVolData.args) (fun _ => rfl) (by first | exact .inl rfl | exact .inr ⟨_, by decide, rfl⟩) (by decide +kernel)

theorem framed_F15_LogVol_F15_LogVolData : (F15_LogVol.cls F15_LogVolData.cls).Framed := list_framed (o := FC3_LogVolData.strOut F15_LogVolData.args) (fun _ => rfl) (by first | exact .inl rfl | exact .inr ⟨_, by decide, rfl⟩) (by decide +kernel)

theorem framed_F15_LogVol_F17_LogVolData : (F15_LogVol.cls F17_LogVolData.cls).Framed := list_framed (o := FC3_LogVolData.strOut F17_LogVolData.args) (fun _ => rfl) (by first | exact .inl rfl | exact .inr ⟨_, by decide, rfl⟩) (by decide +kernel)

theorem framed_F17_LogVol_F17_LogVolData : (F17_LogVol.cls F17_LogVolData.cls).Framed := list_framed (o := FC3_LogVolData.strOut F17_LogVolData.args) (fun _ => rfl) (by first | exact .inl rfl | exact .inr ⟨_, by decide, rfl⟩) (by decide +kernel)

theorem framed_F18_LogVol_F18_LogVolData : (F18_LogVol.cls F18_LogVolData.cls).Framed := list_framed (o := FC3_LogVolData.strOut F18_LogVolData.args) (fun _ => rfl) (by first | exact .inl rfl | exact .inr ⟨_, by decide, rfl⟩) (by decide +kernel)

theorem framed_F18_LogVol_F20_LogVolData : (F18_LogVol.cls F20_LogVolData.cls).Framed := list_framed (o := FC3_LogVolData.strOut F20_LogVolData.args) (fun _ => rfl) (by first | exact .inl rfl | exact .inr ⟨_, by decide, rfl⟩) (by decide +kernel)

theorem framed_F20_LogVol_F20_LogVolData : (F20_LogVol.cls F20_LogVolData.cls).Framed := list_framed (o := FC3_LogVolData.strOut F20_LogVolData.args) (fun _ => rfl) (by first | exact .inl rfl | exact .inr ⟨_, by decide, rfl⟩) (by decide +kernel)

theorem framed_F21_LogVol_F21_LogVolData : (F21_LogVol.cls F21_LogVolData.cls).Framed := list_framed (o := FC3_LogVolData.strOut F21_LogVolData.args) (fun _ => rfl) (by first | exact .inl rfl | exact .inr ⟨_, by decide, rfl⟩) (by decide +kernel)

theorem framed_F23_LogVol_F23_LogVolData : (F23_LogVol.cls F23_LogVolData.cls).Framed := list_framed (o := FC3_LogVolData.strOut F23_LogVolData.args) (fun _ => rfl) (by first | exact .inl rfl | exact .inr ⟨_, by decide, rfl⟩) (by decide +kernel)

theorem framed_F29_LogVol_F29_LogVolData : (F29_LogVol.cls F29_LogVolData.cls).Framed := list_framed (o := FC3_LogVolData.strOut F29_LogVolData.args) (fun _ => rfl) (by first | exact .inl rfl | exact .inr ⟨_, by decide, rfl⟩) (by decide +kernel)

theorem framed_FC4_LogVol_FC4_LogVolData : (FC4_LogVol.cls FC4_LogVolData.cls).Framed := list_framed (o := FC3_LogVolData.strOut FC4_LogVolData.args) (fun _ => rfl) (by first | exact .inl rfl | exact .inr ⟨_, by decide, rfl⟩) (by decide +kernel)

theorem framed_FC3_LogVol_FC3_LogVolData : (FC3_LogVol.cls FC3_LogVolData.cls).Framed := list_framed (o := FC3_LogVolData.strOut FC3_LogVolData.args) (fun _ => rfl) (by first | exact .inl rfl | exact .inr ⟨_, by decide, rfl⟩) (by decide +kernel)

theorem framed_RHEL5_LogVol_RHEL5_LogVolData : (RHEL5_LogVol.cls RHEL5_LogVolData.cls).Framed := list_framed (o := FC3_LogVolData.strOut RHEL5_LogVolData.args) (fun _ => rfl) (by first | exact .inl rfl | exact .inr ⟨_, by decide, rfl⟩) (by decide +kernel)

theorem framed_RHEL6_LogVol_RHEL6_LogVolData : (RHEL6_LogVol.cls RHEL6_LogVolData.cls).Framed := list_framed (o := FC3_LogVolData.strOut RHEL6_LogVolData.args) (fun _ => rfl) (by first | exact .inl rfl | exact .inr ⟨_, by decide, rfl⟩) (by decide +kernel)

theorem framed_RHEL7_LogVol_RHEL7_LogVolData : (RHEL7_LogVol.cls RHEL7_LogVolData.cls).Framed := list_framed (o := FC3_LogVolData.strOut RHEL7_LogVolData.args) (fun _ => rfl) (by first | exact .inl rfl | exact .inr ⟨_, by decide, rfl⟩) (by decide +kernel)

theorem framed_RHEL8_LogVol_RHEL8_LogVolData : (RHEL8_LogVol.cls RHEL8_LogVolData.cls).Framed := list_framed (o := FC3_LogVolData.strOut F29_LogVolData.args) (fun _ => rfl) (by first | exact .inl rfl | exact .inr ⟨_, by decide, rfl⟩) (by decide +kernel)

theorem framed_F9_Network_F8_NetworkData : (F9_Network.cls F8_NetworkData.cls).Framed := list_framed (o := FC3_NetworkData.strOut F8_NetworkData.args) (fun _ => rfl) (by first | exact .inl rfl | exact .inr ⟨_, by decide, rfl⟩) (by decide +kernel)

theorem framed_F16_Network_F16_NetworkData : (F16_Network.cls F16_NetworkData.cls).Framed := list_framed (o := FC3_NetworkData.strOut F16_NetworkData.args) (fun _ => rfl) (by first | exact .inl rfl | exact .inr ⟨_, by decide, rfl⟩) (by decide +kernel)

theorem framed_F18_Network_F16_NetworkData : (F18_Network.cls F16_NetworkData.cls).Framed := list_framed (o := FC3_NetworkData.strOut F16_NetworkData.args) (fun _ => rfl) (by first | exact .inl rfl | exact .inr ⟨_, by decide, rfl⟩) (by decide +kernel)

theorem framed_F19_Network_F19_NetworkData : (F19_Network.cls F19_NetworkData.cls).Framed := list_framed (o := FC3_NetworkData.strOut F19_NetworkData.args) (fun _ => rfl) (by first | exact .inl rfl | exact .inr ⟨_, by decide, rfl⟩) (by decide +kernel)

theorem framed_F20_Network_F20_NetworkData : (F20_Network.cls F20_NetworkData.cls).Framed := list_framed (o := FC3_NetworkData.strOut F20_NetworkData.args) (fun _ => rfl) (by first | exact .inl rfl | exact .inr ⟨_, by decide, rfl⟩) (by decide +kernel)

theorem framed_F21_Network_F21_NetworkData : (F21_Network.cls F21_NetworkData.cls).Framed := list_framed (o := FC3_NetworkData.strOut F21_NetworkData.args) (fun _ => rfl) (by first | exact .inl rfl | exact .inr ⟨_, by decide, rfl⟩) (by decide +kernel)

theorem framed_F22_Network_F22_NetworkData : (F22_Network.cls F22_NetworkData.cls).Framed := list_framed (o := FC3_NetworkData.strOut F22_NetworkData.args) (fun _ => rfl) (by first | exact .inl rfl | exact .inr ⟨_, by decide, rfl⟩) (by decide +kernel)

theorem framed_F24_Network_F22_NetworkData : (F24_Network.cls F22_NetworkData.cls).Framed := list_framed (o := FC3_NetworkData.strOut F22_NetworkData.args) (fun _ => rfl) (by first | exact .inl rfl | exact .inr ⟨_, by decide, rfl⟩) (by decide +kernel)

theorem framed_F25_Network_F25_NetworkData : (F25_Network.cls F25_NetworkData.cls).Framed := list_framed (o := FC3_NetworkData.strOut F25_NetworkData.args) (fun _ => rfl) (by first | exact .inl rfl | exact .inr ⟨_, by decide, rfl⟩) (by decide +kernel)

theorem framed_F27_Network_F27_NetworkData : (F27_Network.cls F27_NetworkData.cls).Framed := list_framed (o := FC3_NetworkData.strOut F27_NetworkData.args) (fun _ => rfl) (by first | exact .inl rfl | exact .inr ⟨_, by decide, rfl⟩) (by decide +kernel)

theorem framed_FC6_Network_FC6_NetworkData : (FC6_Network.cls FC6_NetworkData.cls).Framed := list_framed (o := FC3_NetworkData.strOut FC6_NetworkData.args) (fun _ => rfl) (by first | exact .inl rfl | exact .inr ⟨_, by decide, rfl⟩) (by decide +kernel)

theorem framed_F8_Network_F8_NetworkData : (F8_Network.cls F8_NetworkData.cls).Framed := list_framed (o := FC3_NetworkData.strOut F8_NetworkData.args) (fun _ => rfl) (by first | exact .inl rfl | exact .inr ⟨_, by decide, rfl⟩) (by decide +kernel)

theorem framed_FC3_Network_FC3_NetworkData : (FC3_Network.cls FC3_NetworkData.cls).Framed := list_framed (o := FC3_NetworkData.strOut FC3_NetworkData.args) (fun _ => rfl) (by first | exact .inl rfl | exact .inr ⟨_, by decide, rfl⟩) (by decide +kernel)

theorem framed_FC4_Network_FC4_NetworkData : (FC4_Network.cls FC4_NetworkData.cls).Framed := list_framed (o := FC3_NetworkData.strOut FC4_NetworkData.args) (fun _ => rfl) (by first | exact .inl rfl | exact .inr ⟨_, by decide, rfl⟩) (by decide +kernel)

theorem framed_FC3_Network_RHEL4_NetworkData : (FC3_Network.cls RHEL4_NetworkData.cls).Framed := list_framed (o := FC3_NetworkData.strOut RHEL4_NetworkData.args) (fun _ => rfl) (by first | exact .inl rfl | exact .inr ⟨_, by decide, rfl⟩) (by decide +kernel)

theorem framed_RHEL4_Network_RHEL4_NetworkData : (RHEL4_Network.cls RHEL4_NetworkData.cls).Framed := list_framed (o := FC3_NetworkData.strOut RHEL4_NetworkData.args) (fun _ => rfl) (by first | exact .inl rfl | exact .inr ⟨_, by decide, rfl⟩) (by decide +kernel)

theorem framed_RHEL5_Network_FC6_NetworkData : (RHEL5_Network.cls FC6_NetworkData.cls).Framed := list_framed (o := FC3_NetworkData.strOut FC6_NetworkData.args) (fun _ => rfl) (by first | exact .inl rfl | exact .inr ⟨_, by decide, rfl⟩) (by decide +kernel)

theorem framed_RHEL6_Network_RHEL6_NetworkData : (RHEL6_Network.cls RHEL6_NetworkData.cls).Framed := list_framed (o := FC3_NetworkData.strOut RHEL6_NetworkData.args) (fun _ => rfl) (by first | exact .inl rfl | exact .inr ⟨_, by decide, rfl⟩) (by decide +kernel)

theorem framed_RHEL7_Network_RHEL7_NetworkData : (RHEL7_Network.cls RHEL7_NetworkData.cls).Framed := list_framed (o := FC3_NetworkData.strOut RHEL7_NetworkData.args) (fun _ => rfl) (by first | exact .inl rfl | exact .inr ⟨_, by decide, rfl⟩) (by decide +kernel)

theorem framed_F8_Repo_F8_RepoData : (F8_Repo.cls F8_RepoData.cls).Framed := list_framed (o := FC6_RepoData.strOut F8_RepoData.args) (fun _ => rfl) (by first | exact .inl rfl | exact .inr ⟨_, by decide, rfl⟩) (by decide +kernel)

theorem framed_F11_Repo_F11_RepoData : (F11_Repo.cls F11_RepoData.cls).Framed := list_framed (o := FC6_RepoData.strOut F11_RepoData.args) (fun _ => rfl) (by first | exact .inl rfl | exact .inr ⟨_, by decide, rfl⟩) (by decide +kernel)

theorem framed_F13_Repo_F13_RepoData : (F13_Repo.cls F13_RepoData.cls).Framed := list_framed (o := FC6_RepoData.strOut F13_RepoData.args) (fun _ => rfl) (by first | exact .inl rfl | exact .inr ⟨_, by decide, rfl⟩) (by decide +kernel)

theorem framed_F14_Repo_F14_RepoData : (F14_Repo.cls F14_RepoData.cls).Framed := list_framed (o := FC6_RepoData.strOut F14_RepoData.args) (fun _ => rfl) (by first | exact .inl rfl | exact .inr ⟨_, by decide, rfl⟩) (by decide +kernel)

theorem framed_F15_Repo_F15_RepoData : (F15_Repo.cls F15_RepoData.cls).Framed := list_framed (o := FC6_RepoData.strOut F14_RepoData.args) (fun _ => rfl) (by first | exact .inl rfl | exact .inr ⟨_, by decide, rfl⟩) (by decide +kernel)

theorem framed_F21_Repo_F21_RepoData : (F21_Repo.cls F21_RepoData.cls).Framed := list_framed (o := FC6_RepoData.strOut F21_RepoData.args) (fun _ => rfl) (by first | exact .inl rfl | exact .inr ⟨_, by decide, rfl⟩) (by decide +kernel)

theorem framed_F27_Repo_F27_RepoData : (F27_Repo.cls F27_RepoData.cls).Framed := list_framed (o := FC6_RepoData.strOut F27_RepoData.args) (fun _ => rfl) (by first | exact .inl rfl | exact .inr ⟨_, by decide, rfl⟩) (by decide +kernel)

theorem framed_F30_Repo_F30_RepoData : (F30_Repo.cls F30_RepoData.cls).Framed := list_framed (o := FC6_RepoData.strOut F30_RepoData.args) (fun _ => rfl) (by first | exact .inl rfl | exact .inr ⟨_, by decide, rfl⟩) (by decide +kernel)

theorem framed_F33_Repo_F30_RepoData : (F33_Repo.cls F30_RepoData.cls).Framed := list_framed (o := FC6_RepoData.strOut F30_RepoData.args) (fun _ => rfl) (by first | exact .inl rfl | exact .inr ⟨_, by decide, rfl⟩) (by decide +kernel)

theorem framed_FC6_Repo_FC6_RepoData : (FC6_Repo.cls FC6_RepoData.cls).Framed := list_framed (o := FC6_RepoData.strOut FC6_RepoData.args) (fun _ => rfl) (by first | exact .inl rfl | exact .inr ⟨_, by decide, rfl⟩) (by decide +kernel)

theorem framed_RHEL6_Repo_RHEL6_RepoData : (RHEL6_Repo.cls RHEL6_RepoData.cls).Framed := list_framed (o := FC6_RepoData.strOut F14_RepoData.args) (fun _ => rfl) (by first | exact .inl rfl | exact .inr ⟨_, by decide, rfl⟩) (by decide +kernel)

theorem framed_RHEL7_Repo_RHEL7_RepoData : (RHEL7_Repo.cls RHEL7_RepoData.cls).Framed := list_framed (o := FC6_RepoData.strOut F21_RepoData.args) (fun _ => rfl) (by first | exact .inl rfl | exact .inr ⟨_, by decide, rfl⟩) (by decide +kernel)

theorem framed_RHEL8_Repo_RHEL8_RepoData : (RHEL8_Repo.cls RHEL8_RepoData.cls).Framed := list_framed (o := FC6_RepoData.strOut F30_RepoData.args) (fun _ => rfl) (by first | exact .inl rfl | exact .inr ⟨_, by decide, rfl⟩) (by decide +kernel)

theorem framed_F8_Device_F8_DeviceData : (F8_Device.cls F8_DeviceData.cls).Framed := list_framed (o := F8_DeviceData.strOut) (fun _ => rfl) (by first | exact .inl rfl | exact .inr ⟨_, by decide, rfl⟩) (by decide +kernel)

theorem framed_F8_User_F8_UserData : (F8_User.cls F8_UserData.cls).Framed := list_framed (o := FC6_UserData.strOut F8_UserData.args) (fun _ => rfl) (by first | exact .inl rfl | exact .inr ⟨_, by decide, rfl⟩) (by decide +kernel)

theorem framed_F12_User_F12_UserData : (F12_User.cls F12_UserData.cls).Framed := list_framed (o := FC6_UserData.strOut F12_UserData.args) (fun _ => rfl) (by first | exact .inl rfl | exact .inr ⟨_, by decide, rfl⟩) (by decide +kernel)

theorem framed_F19_User_F19_UserData : (F19_User.cls F19_UserData.cls).Framed := list_framed (o := FC6_UserData.strOut F19_UserData.args) (fun _ => rfl) (by first | exact .inl rfl | exact .inr ⟨_, by decide, rfl⟩) (by decide +kernel)

theorem framed_F24_User_F19_UserData : (F24_User.cls F19_UserData.cls).Framed := list_framed (o := FC6_UserData.strOut F19_UserData.args) (fun _ => rfl) (by first | exact .inl rfl | exact .inr ⟨_, by decide, rfl⟩) (by decide +kernel)

theorem framed_FC6_User_FC6_UserData : (FC6_User.cls FC6_UserData.cls).Framed := list_framed (o := FC6_UserData.strOut FC6_UserData.args) (fun _ => rfl) (by first | exact .inl rfl | exact .inr ⟨_, by decide, rfl⟩) (by decide +kernel)

theorem framed_F12_Group_F12_GroupData : (F12_Group.cls F12_GroupData.cls).Framed := list_framed (o := F12_GroupData.strOut) (fun _ => rfl) (by first | exact .inl rfl | exact .inr ⟨_, by decide, rfl⟩) (by decide +kernel)

theorem framed_F12_Fcoe_F12_FcoeData : (F12_Fcoe.cls F12_FcoeData.cls).Framed := list_framed (o := F12_FcoeData.strOut F12_FcoeData.args) (fun _ => rfl) (by first | exact .inl rfl | exact .inr ⟨_, by decide, rfl⟩) (by decide +kernel)

theorem framed_F13_Fcoe_F13_FcoeData : (F13_Fcoe.cls F13_FcoeData.cls).Framed := list_framed (o := F12_FcoeData.strOut F13_FcoeData.args) (fun _ => rfl) (by first | exact .inl rfl | exact .inr ⟨_, by decide, rfl⟩) (by decide +kernel)

theorem framed_F13_Fcoe_RHEL7_FcoeData : (F13_Fcoe.cls RHEL7_FcoeData.cls).Framed := list_framed (o := F12_FcoeData.strOut RHEL7_FcoeData.args) (fun _ => rfl) (by first | exact .inl rfl | exact .inr ⟨_, by decide, rfl⟩) (by decide +kernel)

theorem framed_F28_Fcoe_F28_FcoeData : (F28_Fcoe.cls F28_FcoeData.cls).Framed := list_framed (o := F12_FcoeData.strOut F28_FcoeData.args) (fun _ => rfl) (by first | exact .inl rfl | exact .inr ⟨_, by decide, rfl⟩) (by decide +kernel)

theorem framed_RHEL7_Fcoe_RHEL7_FcoeData : (RHEL7_Fcoe.cls RHEL7_FcoeData.cls).Framed := list_framed (o := F12_FcoeData.strOut RHEL7_FcoeData.args) (fun _ => rfl) (by first | exact .inl rfl | exact .inr ⟨_, by decide, rfl⟩) (by decide +kernel)

theorem framed_RHEL8_Fcoe_RHEL8_FcoeData : (RHEL8_Fcoe.cls RHEL8_FcoeData.cls).Framed := list_framed (o := F12_FcoeData.strOut F28_FcoeData.args) (fun _ => rfl) (by first | exact .inl rfl | exact .inr ⟨_, by decide, rfl⟩) (by decide +kernel)

theorem framed_F10_Iscsi_F10_IscsiData : (F10_Iscsi.cls F10_IscsiData.cls).Framed := list_framed (o := FC6_IscsiData.strOut F10_IscsiData.args) (fun _ => rfl) (by first | exact .inl rfl | exact .inr ⟨_, by decide, rfl⟩) (by decide +kernel)

theorem framed_F17_Iscsi_F17_IscsiData : (F17_Iscsi.cls F17_IscsiData.cls).Framed := list_framed (o := FC6_IscsiData.strOut RHEL6_IscsiData.args) (fun _ => rfl) (by first | exact .inl rfl | exact .inr ⟨_, by decide, rfl⟩) (by decide +kernel)

theorem framed_FC6_Iscsi_FC6_IscsiData : (FC6_Iscsi.cls FC6_IscsiData.cls).Framed := list_framed (o := FC6_IscsiData.strOut FC6_IscsiData.args) (fun _ => rfl) (by first | exact .inl rfl | exact .inr ⟨_, by decide, rfl⟩) (by decide +kernel)

theorem framed_RHEL6_Iscsi_RHEL6_IscsiData : (RHEL6_Iscsi.cls RHEL6_IscsiData.cls).Framed := list_framed (o := FC6_IscsiData.strOut RHEL6_IscsiData.args) (fun _ => rfl) (by first | exact .inl rfl | exact .inr ⟨_, by decide, rfl⟩) (by decide +kernel)

theorem framed_FC3_ZFCP_FC3_ZFCPData : (FC3_ZFCP.cls FC3_ZFCPData.cls).Framed := list_framed (o := FC3_ZFCPData.strOut) (fun _ => rfl) (by first | exact .inl rfl | exact .inr ⟨_, by decide, rfl⟩) (by decide +kernel)

theorem framed_F12_ZFCP_F12_ZFCPData : (F12_ZFCP.cls F12_ZFCPData.cls).Framed := list_framed (o := FC3_ZFCPData.strOut) (fun _ => rfl) (by first | exact .inl rfl | exact .inr ⟨_, by decide, rfl⟩) (by decide +kernel)

theorem framed_F14_ZFCP_F14_ZFCPData : (F14_ZFCP.cls F14_ZFCPData.cls).Framed := list_framed (o := FC3_ZFCPData.strOut) (fun _ => rfl) (by first | exact .inl rfl | exact .inr ⟨_, by decide, rfl⟩) (by decide +kernel)

theorem framed_F29_Module_F29_ModuleData : (F29_Module.cls F29_ModuleData.cls).Framed := list_framed (o := F29_ModuleData.strOut F29_ModuleData.args) (fun _ => rfl) (by first | exact .inl rfl | exact .inr ⟨_, by decide, rfl⟩) (by decide +kernel)

theorem framed_F31_Module_F31_ModuleData : (F31_Module.cls F31_ModuleData.cls).Framed := list_framed (o := F29_ModuleData.strOut RHEL8_ModuleData.args) (fun _ => rfl) (by first | exact .inl rfl | exact .inr ⟨_, by decide, rfl⟩) (by decide +kernel)

theorem framed_RHEL8_Module_RHEL8_ModuleData : (RHEL8_Module.cls RHEL8_ModuleData.cls).Framed := list_framed (o := F29_ModuleData.strOut RHEL8_ModuleData.args) (fun _ => rfl) (by first | exact .inl rfl | exact .inr ⟨_, by decide, rfl⟩) (by decide +kernel)

theorem framed_F33_Timesource_F33_TimesourceData : (F33_Timesource.cls F33_TimesourceData.cls).Framed := list_framed (o := F33_TimesourceData.strOut F33_TimesourceData.args) (fun _ => rfl) (by first | exact .inl rfl | exact .inr ⟨_, by decide, rfl⟩) (by decide +kernel)

theorem framed_part : ∀ y ∈ commandMaps, ∀ c, y.2.lookup c!"part" = some c → c.hasList { attrs := {} } = true → c.Framed := by
  unfold commandMaps
  exact (all_cons (fun c h hl => by cases h; exact framed_F9_Partition_F9_PartData)
    (all_cons (fun c h hl => by cases h; exact framed_F11_Partition_F11_PartData)
    (all_cons (fun c h hl => by cases h; exact framed_F12_Partition_F12_PartData)
    (all_cons (fun c h hl => by cases h; exact framed_F12_Partition_F12_PartData)
    (all_cons (fun c h hl => by cases h; exact framed_F14_Partition_F14_PartData)
    (all_cons (fun c h hl => by cases h; exact framed_F14_Partition_F14_PartData)
    (all_cons (fun c h hl => by cases h; exact framed_F14_Partition_F17_PartData)
    (all_cons (fun c h hl => by cases h; exact framed_F17_Partition_F17_PartData)
    (all_cons (fun c h hl => by cases h; exact framed_F18_Partition_F18_PartData)
    (all_cons (fun c h hl => by cases h; exact framed_F18_Partition_F18_PartData)
    (all_cons (fun c h hl => by cases h; exact framed_F20_Partition_F18_PartData)
    (all_cons (fun c h hl => by cases h; exact framed_F20_Partition_F18_PartData)
    (all_cons (fun c h hl => by cases h; exact framed_F20_Partition_F18_PartData)
    (all_cons (fun c h hl => by cases h; exact framed_F23_Partition_F23_PartData)
    (all_cons (fun c h hl => by cases h; exact framed_F23_Partition_F23_PartData)
    (all_cons (fun c h hl => by cases h; exact framed_F23_Partition_F23_PartData)
    (all_cons (fun c h hl => by cases h; exact framed_F23_Partition_F23_PartData)
    (all_cons (fun c h hl => by cases h; exact framed_F23_Partition_F23_PartData)
    (all_cons (fun c h hl => by cases h; exact framed_F23_Partition_F23_PartData)
    (all_cons (fun c h hl => by cases h; exact framed_F29_Partition_F29_PartData)
    (all_cons (fun c h hl => by cases h; exact framed_F29_Partition_F29_PartData)
    (all_cons (fun c h hl => by cases h; exact framed_F29_Partition_F29_PartData)
    (all_cons (fun c h hl => by cases h; exact framed_F29_Partition_F29_PartData)
    (all_cons (fun c h hl => by cases h; exact framed_F29_Partition_F29_PartData)
    (all_cons (fun c h hl => by cases h; exact framed_F34_Partition_F29_PartData)
    (all_cons (fun c h hl => by cases h; exact framed_FC4_Partition_FC4_PartData)
    (all_cons (fun c h hl => by cases h; exact framed_FC4_Partition_FC4_PartData)
    (all_cons (fun c h hl => by cases h; exact framed_F9_Partition_F9_PartData)
    (all_cons (fun c h hl => by cases h; exact framed_FC3_Partition_FC3_PartData)
    (all_cons (fun c h hl => by cases h; exact framed_FC4_Partition_FC4_PartData)
    (all_cons (fun c h hl => by cases h; exact framed_FC4_Partition_FC4_PartData)
    (all_cons (fun c h hl => by cases h; exact framed_FC4_Partition_FC4_PartData)
    (all_cons (fun c h hl => by cases h; exact framed_FC3_Partition_FC3_PartData)
    (all_cons (fun c h hl => by cases h; exact framed_FC3_Partition_FC3_PartData)
    (all_cons (fun c h hl => by cases h; exact framed_RHEL5_Partition_RHEL5_PartData)
    (all_cons (fun c h hl => by cases h; exact framed_RHEL6_Partition_RHEL6_PartData)
    (all_cons (fun c h hl => by cases h; exact framed_RHEL7_Partition_RHEL7_PartData)
    (all_cons (fun c h hl => by cases h; exact framed_RHEL8_Partition_RHEL8_PartData) (List.forall_mem_nil _)))))))))))))))))))))))))))))))))))))))

theorem framed_partition : ∀ y ∈ commandMaps, ∀ c, y.2.lookup c!"partition" = some c → c.hasList { attrs := {} } = true → c.Framed := by
  unfold commandMaps
  exact (all_cons (fun c h hl => by cases h; exact framed_F9_Partition_F9_PartData)
    (all_cons (fun c h hl => by cases h; exact framed_F11_Partition_F11_PartData)
    (all_cons (fun c h hl => by cases h; exact framed_F12_Partition_F12_PartData)
    (all_cons (fun c h hl => by cases h; exact framed_F12_Partition_F12_PartData)
    (all_cons (fun c h hl => by cases h; exact framed_F14_Partition_F14_PartData)
    (all_cons (fun c h hl => by cases h; exact framed_F14_Partition_F14_PartData)
    (all_cons (fun c h hl => by cases h; exact framed_F14_Partition_F17_PartData)
    (all_cons (fun c h hl => by cases h; exact framed_F17_Partition_F17_PartData)
    (all_cons (fun c h hl => by cases h; exact framed_F18_Partition_F18_PartData)
    (all_cons (fun c h hl => by cases h; exact framed_F18_Partition_F18_PartData)
    (all_cons (fun c h hl => by cases h; exact framed_F20_Partition_F18_PartData)
    (all_cons (fun c h hl => by cases h; exact framed_F20_Partition_F18_PartData)
    (all_cons (fun c h hl => by cases h; exact framed_F20_Partition_F18_PartData)
    (all_cons (fun c h hl => by cases h; exact framed_F23_Partition_F23_PartData)
    (all_cons (fun c h hl => by cases h; exact framed_F23_Partition_F23_PartData)
    (all_cons (fun c h hl => by cases h; exact framed_F23_Partition_F23_PartData)
    (all_cons (fun c h hl => by cases h; exact framed_F23_Partition_F23_PartData)
    (all_cons (fun c h hl => by cases h; exact framed_F23_Partition_F23_PartData)
    (all_cons (fun c h hl => by cases h; exact framed_F23_Partition_F23_PartData)
    (all_cons (fun c h hl => by cases h; exact framed_F29_Partition_F29_PartData)
    (all_cons (fun c h hl => by cases h; exact framed_F29_Partition_F29_PartData)
    (all_cons (fun c h hl => by cases h; exact framed_F29_Partition_F29_PartData)
    (all_cons (fun c h hl => by cases h; exact framed_F29_Partition_F29_PartData)
    (all_cons (fun c h hl => by cases h; exact framed_F29_Partition_F29_PartData)
    (all_cons (fun c h hl => by cases h; exact framed_F34_Partition_F29_PartData)
    (all_cons (fun c h hl => by cases h; exact framed_FC4_Partition_FC4_PartData)
    (all_cons (fun c h hl => by cases h; exact framed_FC4_Partition_FC4_PartData)
    (all_cons (fun c h hl => by cases h; exact framed_F9_Partition_F9_PartData)
    (all_cons (fun c h hl => by cases h; exact framed_FC3_Partition_FC3_PartData)
    (all_cons (fun c h hl => by cases h; exact framed_FC4_Partition_FC4_PartData)
    (all_cons (fun c h hl => by cases h; exact framed_FC4_Partition_FC4_PartData)
    (all_cons (fun c h hl => by cases h; exact framed_FC4_Partition_FC4_PartData)
    (all_cons (fun c h hl => by cases h; exact framed_FC3_Partition_FC3_PartData)
    (all_cons (fun c h hl => by cases h; exact framed_FC3_Partition_FC3_PartData)
    (all_cons (fun c h hl => by cases h; exact framed_RHEL5_Partition_RHEL5_PartData)
    (all_cons (fun c h hl => by cases h; exact framed_RHEL6_Partition_RHEL6_PartData)
    (all_cons (fun c h hl => by cases h; exact framed_RHEL7_Partition_RHEL7_PartData)
    (all_cons (fun c h hl => by cases h; exact framed_RHEL8_Partition_RHEL8_PartData) (List.forall_mem_nil _)))))))))))))))))))))))))))))))))))))))

theorem framed_logvol : ∀ y ∈ commandMaps, ∀ c, y.2.lookup c!"logvol" = some c → c.hasList { attrs := {} } = true → c.Framed := by
  unfold commandMaps
  exact (all_cons (fun c h hl => by cases h; exact framed_F9_LogVol_F9_LogVolData)
    (all_cons (fun c h hl => by cases h; exact framed_F9_LogVol_F9_LogVolData)
    (all_cons (fun c h hl => by cases h; exact framed_F12_LogVol_F12_LogVolData)
    (all_cons (fun c h hl => by cases h; exact framed_F12_LogVol_F12_LogVolData)
    (all_cons (fun c h hl => by cases h; exact framed_F14_LogVol_F14_LogVolData)
    (all_cons (fun c h hl => by cases h; exact framed_F15_LogVol_F15_LogVolData)
    (all_cons (fun c h hl => by cases h; exact framed_F15_LogVol_F17_LogVolData)
    (all_cons (fun c h hl => by cases h; exact framed_F17_LogVol_F17_LogVolData)
    (all_cons (fun c h hl => by cases h; exact framed_F18_LogVol_F18_LogVolData)
    (all_cons (fun c h hl => by cases h; exact framed_F18_LogVol_F20_LogVolData)
    (all_cons (fun c h hl => by cases h; exact framed_F20_LogVol_F20_LogVolData)
    (all_cons (fun c h hl => by cases h; exact framed_F21_LogVol_F21_LogVolData)
    (all_cons (fun c h hl => by cases h; exact framed_F21_LogVol_F21_LogVolData)
    (all_cons (fun c h hl => by cases h; exact framed_F23_LogVol_F23_LogVolData)
    (all_cons (fun c h hl => by cases h; exact framed_F23_LogVol_F23_LogVolData)
    (all_cons (fun c h hl => by cases h; exact framed_F23_LogVol_F23_LogVolData)
    (all_cons (fun c h hl => by cases h; exact framed_F23_LogVol_F23_LogVolData)
    (all_cons (fun c h hl => by cases h; exact framed_F23_LogVol_F23_LogVolData)
    (all_cons (fun c h hl => by cases h; exact framed_F23_LogVol_F23_LogVolData)
    (all_cons (fun c h hl => by cases h; exact framed_F29_LogVol_F29_LogVolData)
    (all_cons (fun c h hl => by cases h; exact framed_F29_LogVol_F29_LogVolData)
    (all_cons (fun c h hl => by cases h; exact framed_F29_LogVol_F29_LogVolData)
    (all_cons (fun c h hl => by cases h; exact framed_F29_LogVol_F29_LogVolData)
    (all_cons (fun c h hl => by cases h; exact framed_F29_LogVol_F29_LogVolData)
    (all_cons (fun c h hl => by cases h; exact framed_F29_LogVol_F29_LogVolData)
    (all_cons (fun c h hl => by cases h; exact framed_FC4_LogVol_FC4_LogVolData)
    (all_cons (fun c h hl => by cases h; exact framed_FC4_LogVol_FC4_LogVolData)
    (all_cons (fun c h hl => by cases h; exact framed_F9_LogVol_F9_LogVolData)
    (all_cons (fun c h hl => by cases h; exact framed_FC3_LogVol_FC3_LogVolData)
    (all_cons (fun c h hl => by cases h; exact framed_FC4_LogVol_FC4_LogVolData)
    (all_cons (fun c h hl => by cases h; exact framed_FC4_LogVol_FC4_LogVolData)
    (all_cons (fun c h hl => by cases h; exact framed_FC4_LogVol_FC4_LogVolData)
    (all_cons (fun c h hl => by cases h; exact framed_FC3_LogVol_FC3_LogVolData)
    (all_cons (fun c h hl => by cases h; exact framed_FC3_LogVol_FC3_LogVolData)
    (all_cons (fun c h hl => by cases h; exact framed_RHEL5_LogVol_RHEL5_LogVolData)
    (all_cons (fun c h hl => by cases h; exact framed_RHEL6_LogVol_RHEL6_LogVolData)
    (all_cons (fun c h hl => by cases h; exact framed_RHEL7_LogVol_RHEL7_LogVolData)
    (all_cons (fun c h hl => by cases h; exact framed_RHEL8_LogVol_RHEL8_LogVolData) (List.forall_mem_nil _)))))))))))))))))))))))))))))))))))))))

theorem framed_network : ∀ y ∈ commandMaps, ∀ c, y.2.lookup c!"network" = some c → c.hasList { attrs := {} } = true → c.Framed := by
  unfold commandMaps
  exact (all_cons (fun c h hl => by cases h; exact framed_F9_Network_F8_NetworkData)
    (all_cons (fun c h hl => by cases h; exact framed_F9_Network_F8_NetworkData)
    (all_cons (fun c h hl => by cases h; exact framed_F9_Network_F8_NetworkData)
    (all_cons (fun c h hl => by cases h; exact framed_F9_Network_F8_NetworkData)
    (all_cons (fun c h hl => by cases h; exact framed_F9_Network_F8_NetworkData)
    (all_cons (fun c h hl => by cases h; exact framed_F9_Network_F8_NetworkData)
    (all_cons (fun c h hl => by cases h; exact framed_F16_Network_F16_NetworkData)
    (all_cons (fun c h hl => by cases h; exact framed_F16_Network_F16_NetworkData)
    (all_cons (fun c h hl => by cases h; exact framed_F18_Network_F16_NetworkData)
    (all_cons (fun c h hl => by cases h; exact framed_F19_Network_F19_NetworkData)
    (all_cons (fun c h hl => by cases h; exact framed_F20_Network_F20_NetworkData)
    (all_cons (fun c h hl => by cases h; exact framed_F21_Network_F21_NetworkData)
    (all_cons (fun c h hl => by cases h; exact framed_F22_Network_F22_NetworkData)
    (all_cons (fun c h hl => by cases h; exact framed_F22_Network_F22_NetworkData)
    (all_cons (fun c h hl => by cases h; exact framed_F24_Network_F22_NetworkData)
    (all_cons (fun c h hl => by cases h; exact framed_F25_Network_F25_NetworkData)
    (all_cons (fun c h hl => by cases h; exact framed_F25_Network_F25_NetworkData)
    (all_cons (fun c h hl => by cases h; exact framed_F27_Network_F27_NetworkData)
    (all_cons (fun c h hl => by cases h; exact framed_F27_Network_F27_NetworkData)
    (all_cons (fun c h hl => by cases h; exact framed_F27_Network_F27_NetworkData)
    (all_cons (fun c h hl => by cases h; exact framed_F27_Network_F27_NetworkData)
    (all_cons (fun c h hl => by cases h; exact framed_F27_Network_F27_NetworkData)
    (all_cons (fun c h hl => by cases h; exact framed_F27_Network_F27_NetworkData)
    (all_cons (fun c h hl => by cases h; exact framed_F27_Network_F27_NetworkData)
    (all_cons (fun c h hl => by cases h; exact framed_F27_Network_F27_NetworkData)
    (all_cons (fun c h hl => by cases h; exact framed_FC6_Network_FC6_NetworkData)
    (all_cons (fun c h hl => by cases h; exact framed_F8_Network_F8_NetworkData)
    (all_cons (fun c h hl => by cases h; exact framed_F9_Network_F8_NetworkData)
    (all_cons (fun c h hl => by cases h; exact framed_FC3_Network_FC3_NetworkData)
    (all_cons (fun c h hl => by cases h; exact framed_FC4_Network_FC4_NetworkData)
    (all_cons (fun c h hl => by cases h; exact framed_FC4_Network_FC4_NetworkData)
    (all_cons (fun c h hl => by cases h; exact framed_FC6_Network_FC6_NetworkData)
    (all_cons (fun c h hl => by cases h; exact framed_FC3_Network_RHEL4_NetworkData)
    (all_cons (fun c h hl => by cases h; exact framed_RHEL4_Network_RHEL4_NetworkData)
    (all_cons (fun c h hl => by cases h; exact framed_RHEL5_Network_FC6_NetworkData)
    (all_cons (fun c h hl => by cases h; exact framed_RHEL6_Network_RHEL6_NetworkData)
    (all_cons (fun c h hl => by cases h; exact framed_RHEL7_Network_RHEL7_NetworkData)
    (all_cons (fun c h hl => by cases h; exact framed_F27_Network_F27_NetworkData) (List.forall_mem_nil _)))))))))))))))))))))))))))))))))))))))

theorem framed_repo : ∀ y ∈ commandMaps, ∀ c, y.2.lookup c!"repo" = some c → c.hasList { attrs := {} } = true → c.Framed := by
  unfold commandMaps
  exact (all_cons (fun c h hl => by cases h; exact framed_F8_Repo_F8_RepoData)
    (all_cons (fun c h hl => by cases h; exact framed_F11_Repo_F11_RepoData)
    (all_cons (fun c h hl => by cases h; exact framed_F11_Repo_F11_RepoData)
    (all_cons (fun c h hl => by cases h; exact framed_F13_Repo_F13_RepoData)
    (all_cons (fun c h hl => by cases h; exact framed_F14_Repo_F14_RepoData)
    (all_cons (fun c h hl => by cases h; exact framed_F15_Repo_F15_RepoData)
    (all_cons (fun c h hl => by cases h; exact framed_F15_Repo_F15_RepoData)
    (all_cons (fun c h hl => by cases h; exact framed_F15_Repo_F15_RepoData)
    (all_cons (fun c h hl => by cases h; exact framed_F15_Repo_F15_RepoData)
    (all_cons (fun c h hl => by cases h; exact framed_F15_Repo_F15_RepoData)
    (all_cons (fun c h hl => by cases h; exact framed_F15_Repo_F15_RepoData)
    (all_cons (fun c h hl => by cases h; exact framed_F21_Repo_F21_RepoData)
    (all_cons (fun c h hl => by cases h; exact framed_F21_Repo_F21_RepoData)
    (all_cons (fun c h hl => by cases h; exact framed_F21_Repo_F21_RepoData)
    (all_cons (fun c h hl => by cases h; exact framed_F21_Repo_F21_RepoData)
    (all_cons (fun c h hl => by cases h; exact framed_F21_Repo_F21_RepoData)
    (all_cons (fun c h hl => by cases h; exact framed_F21_Repo_F21_RepoData)
    (all_cons (fun c h hl => by cases h; exact framed_F27_Repo_F27_RepoData)
    (all_cons (fun c h hl => by cases h; exact framed_F27_Repo_F27_RepoData)
    (all_cons (fun c h hl => by cases h; exact framed_F27_Repo_F27_RepoData)
    (all_cons (fun c h hl => by cases h; exact framed_F30_Repo_F30_RepoData)
    (all_cons (fun c h hl => by cases h; exact framed_F30_Repo_F30_RepoData)
    (all_cons (fun c h hl => by cases h; exact framed_F30_Repo_F30_RepoData)
    (all_cons (fun c h hl => by cases h; exact framed_F33_Repo_F30_RepoData)
    (all_cons (fun c h hl => by cases h; exact framed_F33_Repo_F30_RepoData)
    (all_cons (fun c h hl => by cases h; exact framed_FC6_Repo_FC6_RepoData)
    (all_cons (fun c h hl => by cases h; exact framed_F8_Repo_F8_RepoData)
    (all_cons (fun c h hl => by cases h; exact framed_F8_Repo_F8_RepoData)
    (all_cons (fun c h hl => by cases h)
    (all_cons (fun c h hl => by cases h)
    (all_cons (fun c h hl => by cases h)
    (all_cons (fun c h hl => by cases h; exact framed_FC6_Repo_FC6_RepoData)
    (all_cons (fun c h hl => by cases h)
    (all_cons (fun c h hl => by cases h)
    (all_cons (fun c h hl => by cases h; exact framed_FC6_Repo_FC6_RepoData)
    (all_cons (fun c h hl => by cases h; exact framed_RHEL6_Repo_RHEL6_RepoData)
    (all_cons (fun c h hl => by cases h; exact framed_RHEL7_Repo_RHEL7_RepoData)
    (all_cons (fun c h hl => by cases h; exact framed_RHEL8_Repo_RHEL8_RepoData) (List.forall_mem_nil _)))))))))))))))))))))))))))))))))))))))

theorem framed_device : ∀ y ∈ commandMaps, ∀ c, y.2.lookup c!"device" = some c → c.hasList { attrs := {} } = true → c.Framed := by
  unfold commandMaps
  exact (all_cons (fun c h hl => by cases h; exact framed_F8_Device_F8_DeviceData)
    (all_cons (fun c h hl => by cases h; exact framed_F8_Device_F8_DeviceData)
    (all_cons (fun c h hl => by cases h; exact framed_F8_Device_F8_DeviceData)
    (all_cons (fun c h hl => by cases h; exact framed_F8_Device_F8_DeviceData)
    (all_cons (fun c h hl => by cases h; exact framed_F8_Device_F8_DeviceData)
    (all_cons (fun c h hl => by cases h; exact framed_F8_Device_F8_DeviceData)
    (all_cons (fun c h hl => by cases h; exact framed_F8_Device_F8_DeviceData)
    (all_cons (fun c h hl => by cases h; exact framed_F8_Device_F8_DeviceData)
    (all_cons (fun c h hl => by cases h; exact framed_F8_Device_F8_DeviceData)
    (all_cons (fun c h hl => by cases h; exact framed_F8_Device_F8_DeviceData)
    (all_cons (fun c h hl => by cases h; exact framed_F8_Device_F8_DeviceData)
    (all_cons (fun c h hl => by cases h; exact framed_F8_Device_F8_DeviceData)
    (all_cons (fun c h hl => by cases h; exact framed_F8_Device_F8_DeviceData)
    (all_cons (fun c h hl => by cases h; exact framed_F8_Device_F8_DeviceData)
    (all_cons (fun c h hl => by cases h; exact absurd hl (by decide))
    (all_cons (fun c h hl => by cases h; exact absurd hl (by decide))
    (all_cons (fun c h hl => by cases h; exact absurd hl (by decide))
    (all_cons (fun c h hl => by cases h; exact absurd hl (by decide))
    (all_cons (fun c h hl => by cases h; exact absurd hl (by decide))
    (all_cons (fun c h hl => by cases h; exact absurd hl (by decide))
    (all_cons (fun c h hl => by cases h; exact absurd hl (by decide))
    (all_cons (fun c h hl => by cases h; exact absurd hl (by decide))
    (all_cons (fun c h hl => by cases h; exact absurd hl (by decide))
    (all_cons (fun c h hl => by cases h; exact absurd hl (by decide))
    (all_cons (fun c h hl => by cases h; exact absurd hl (by decide))
    (all_cons (fun c h hl => by cases h; exact absurd hl (by decide))
    (all_cons (fun c h hl => by cases h; exact framed_F8_Device_F8_DeviceData)
    (all_cons (fun c h hl => by cases h; exact framed_F8_Device_F8_DeviceData)
    (all_cons (fun c h hl => by cases h; exact absurd hl (by decide))
    (all_cons (fun c h hl => by cases h; exact absurd hl (by decide))
    (all_cons (fun c h hl => by cases h; exact absurd hl (by decide))
    (all_cons (fun c h hl => by cases h; exact absurd hl (by decide))
    (all_cons (fun c h hl => by cases h; exact absurd hl (by decide))
    (all_cons (fun c h hl => by cases h; exact absurd hl (by decide))
    (all_cons (fun c h hl => by cases h; exact absurd hl (by decide))
    (all_cons (fun c h hl => by cases h; exact framed_F8_Device_F8_DeviceData)
    (all_cons (fun c h hl => by cases h; exact framed_F8_Device_F8_DeviceData)
    (all_cons (fun c h hl => by cases h; exact absurd hl (by decide)) (List.forall_mem_nil _)))))))))))))))))))))))))))))))))))))))

theorem framed_user : ∀ y ∈ commandMaps, ∀ c, y.2.lookup c!"user" = some c → c.hasList { attrs := {} } = true → c.Framed := by
  unfold commandMaps
  exact (all_cons (fun c h hl => by cases h; exact framed_F8_User_F8_UserData)
    (all_cons (fun c h hl => by cases h; exact framed_F8_User_F8_UserData)
    (all_cons (fun c h hl => by cases h; exact framed_F12_User_F12_UserData)
    (all_cons (fun c h hl => by cases h; exact framed_F12_User_F12_UserData)
    (all_cons (fun c h hl => by cases h; exact framed_F12_User_F12_UserData)
    (all_cons (fun c h hl => by cases h; exact framed_F12_User_F12_UserData)
    (all_cons (fun c h hl => by cases h; exact framed_F12_User_F12_UserData)
    (all_cons (fun c h hl => by cases h; exact framed_F12_User_F12_UserData)
    (all_cons (fun c h hl => by cases h; exact framed_F12_User_F12_UserData)
    (all_cons (fun c h hl => by cases h; exact framed_F19_User_F19_UserData)
    (all_cons (fun c h hl => by cases h; exact framed_F19_User_F19_UserData)
    (all_cons (fun c h hl => by cases h; exact framed_F19_User_F19_UserData)
    (all_cons (fun c h hl => by cases h; exact framed_F19_User_F19_UserData)
    (all_cons (fun c h hl => by cases h; exact framed_F19_User_F19_UserData)
    (all_cons (fun c h hl => by cases h; exact framed_F24_User_F19_UserData)
    (all_cons (fun c h hl => by cases h; exact framed_F24_User_F19_UserData)
    (all_cons (fun c h hl => by cases h; exact framed_F24_User_F19_UserData)
    (all_cons (fun c h hl => by cases h; exact framed_F24_User_F19_UserData)
    (all_cons (fun c h hl => by cases h; exact framed_F24_User_F19_UserData)
    (all_cons (fun c h hl => by cases h; exact framed_F24_User_F19_UserData)
    (all_cons (fun c h hl => by cases h; exact framed_F24_User_F19_UserData)
    (all_cons (fun c h hl => by cases h; exact framed_F24_User_F19_UserData)
    (all_cons (fun c h hl => by cases h; exact framed_F24_User_F19_UserData)
    (all_cons (fun c h hl => by cases h; exact framed_F24_User_F19_UserData)
    (all_cons (fun c h hl => by cases h; exact framed_F24_User_F19_UserData)
    (all_cons (fun c h hl => by cases h; exact framed_FC6_User_FC6_UserData)
    (all_cons (fun c h hl => by cases h; exact framed_F8_User_F8_UserData)
    (all_cons (fun c h hl => by cases h; exact framed_F8_User_F8_UserData)
    (all_cons (fun c h hl => by cases h)
    (all_cons (fun c h hl => by cases h)
    (all_cons (fun c h hl => by cases h)
    (all_cons (fun c h hl => by cases h; exact framed_FC6_User_FC6_UserData)
    (all_cons (fun c h hl => by cases h)
    (all_cons (fun c h hl => by cases h)
    (all_cons (fun c h hl => by cases h; exact framed_FC6_User_FC6_UserData)
    (all_cons (fun c h hl => by cases h; exact framed_F12_User_F12_UserData)
    (all_cons (fun c h hl => by cases h; exact framed_F19_User_F19_UserData)
    (all_cons (fun c h hl => by cases h; exact framed_F24_User_F19_UserData) (List.forall_mem_nil _)))))))))))))))))))))))))))))))))))))))

theorem framed_group : ∀ y ∈ commandMaps, ∀ c, y.2.lookup c!"group" = some c → c.hasList { attrs := {} } = true → c.Framed := by
  unfold commandMaps
  exact (all_cons (fun c h hl => by cases h)
    (all_cons (fun c h hl => by cases h)
    (all_cons (fun c h hl => by cases h; exact framed_F12_Group_F12_GroupData)
    (all_cons (fun c h hl => by cases h; exact framed_F12_Group_F12_GroupData)
    (all_cons (fun c h hl => by cases h; exact framed_F12_Group_F12_GroupData)
    (all_cons (fun c h hl => by cases h; exact framed_F12_Group_F12_GroupData)
    (all_cons (fun c h hl => by cases h; exact framed_F12_Group_F12_GroupData)
    (all_cons (fun c h hl => by cases h; exact framed_F12_Group_F12_GroupData)
    (all_cons (fun c h hl => by cases h; exact framed_F12_Group_F12_GroupData)
    (all_cons (fun c h hl => by cases h; exact framed_F12_Group_F12_GroupData)
    (all_cons (fun c h hl => by cases h; exact framed_F12_Group_F12_GroupData)
    (all_cons (fun c h hl => by cases h; exact framed_F12_Group_F12_GroupData)
    (all_cons (fun c h hl => by cases h; exact framed_F12_Group_F12_GroupData)
    (all_cons (fun c h hl => by cases h; exact framed_F12_Group_F12_GroupData)
    (all_cons (fun c h hl => by cases h; exact framed_F12_Group_F12_GroupData)
    (all_cons (fun c h hl => by cases h; exact framed_F12_Group_F12_GroupData)
    (all_cons (fun c h hl => by cases h; exact framed_F12_Group_F12_GroupData)
    (all_cons (fun c h hl => by cases h; exact framed_F12_Group_F12_GroupData)
    (all_cons (fun c h hl => by cases h; exact framed_F12_Group_F12_GroupData)
    (all_cons (fun c h hl => by cases h; exact framed_F12_Group_F12_GroupData)
    (all_cons (fun c h hl => by cases h; exact framed_F12_Group_F12_GroupData)
    (all_cons (fun c h hl => by cases h; exact framed_F12_Group_F12_GroupData)
    (all_cons (fun c h hl => by cases h; exact framed_F12_Group_F12_GroupData)
    (all_cons (fun c h hl => by cases h; exact framed_F12_Group_F12_GroupData)
    (all_cons (fun c h hl => by cases h; exact framed_F12_Group_F12_GroupData)
    (all_cons (fun c h hl => by cases h)
    (all_cons (fun c h hl => by cases h)
    (all_cons (fun c h hl => by cases h)
    (all_cons (fun c h hl => by cases h)
    (all_cons (fun c h hl => by cases h)
    (all_cons (fun c h hl => by cases h)
    (all_cons (fun c h hl => by cases h)
    (all_cons (fun c h hl => by cases h)
    (all_cons (fun c h hl => by cases h)
    (all_cons (fun c h hl => by cases h)
    (all_cons (fun c h hl => by cases h; exact framed_F12_Group_F12_GroupData)
    (all_cons (fun c h hl => by cases h; exact framed_F12_Group_F12_GroupData)
    (all_cons (fun c h hl => by cases h; exact framed_F12_Group_F12_GroupData) (List.forall_mem_nil _)))))))))))))))))))))))))))))))))))))))

theorem framed_fcoe : ∀ y ∈ commandMaps, ∀ c, y.2.lookup c!"fcoe" = some c → c.hasList { attrs := {} } = true → c.Framed := by
  unfold commandMaps
  exact (all_cons (fun c h hl => by cases h)
    (all_cons (fun c h hl => by cases h)
    (all_cons (fun c h hl => by cases h; exact framed_F12_Fcoe_F12_FcoeData)
    (all_cons (fun c h hl => by cases h; exact framed_F13_Fcoe_F13_FcoeData)
    (all_cons (fun c h hl => by cases h; exact framed_F13_Fcoe_F13_FcoeData)
    (all_cons (fun c h hl => by cases h; exact framed_F13_Fcoe_F13_FcoeData)
    (all_cons (fun c h hl => by cases h; exact framed_F13_Fcoe_F13_FcoeData)
    (all_cons (fun c h hl => by cases h; exact framed_F13_Fcoe_F13_FcoeData)
    (all_cons (fun c h hl => by cases h; exact framed_F13_Fcoe_RHEL7_FcoeData)
    (all_cons (fun c h hl => by cases h; exact framed_F13_Fcoe_F13_FcoeData)
    (all_cons (fun c h hl => by cases h; exact framed_F13_Fcoe_F13_FcoeData)
    (all_cons (fun c h hl => by cases h; exact framed_F13_Fcoe_F13_FcoeData)
    (all_cons (fun c h hl => by cases h; exact framed_F13_Fcoe_F13_FcoeData)
    (all_cons (fun c h hl => by cases h; exact framed_F13_Fcoe_F13_FcoeData)
    (all_cons (fun c h hl => by cases h; exact framed_F13_Fcoe_F13_FcoeData)
    (all_cons (fun c h hl => by cases h; exact framed_F13_Fcoe_F13_FcoeData)
    (all_cons (fun c h hl => by cases h; exact framed_F13_Fcoe_F13_FcoeData)
    (all_cons (fun c h hl => by cases h; exact framed_F13_Fcoe_F13_FcoeData)
    (all_cons (fun c h hl => by cases h; exact framed_F28_Fcoe_F28_FcoeData)
    (all_cons (fun c h hl => by cases h; exact framed_F28_Fcoe_F28_FcoeData)
    (all_cons (fun c h hl => by cases h; exact framed_F28_Fcoe_F28_FcoeData)
    (all_cons (fun c h hl => by cases h; exact framed_F28_Fcoe_F28_FcoeData)
    (all_cons (fun c h hl => by cases h; exact framed_F28_Fcoe_F28_FcoeData)
    (all_cons (fun c h hl => by cases h; exact framed_F28_Fcoe_F28_FcoeData)
    (all_cons (fun c h hl => by cases h; exact framed_F28_Fcoe_F28_FcoeData)
    (all_cons (fun c h hl => by cases h)
    (all_cons (fun c h hl => by cases h)
    (all_cons (fun c h hl => by cases h)
    (all_cons (fun c h hl => by cases h)
    (all_cons (fun c h hl => by cases h)
    (all_cons (fun c h hl => by cases h)
    (all_cons (fun c h hl => by cases h)
    (all_cons (fun c h hl => by cases h)
    (all_cons (fun c h hl => by cases h)
    (all_cons (fun c h hl => by cases h)
    (all_cons (fun c h hl => by cases h; exact framed_F13_Fcoe_F13_FcoeData)
    (all_cons (fun c h hl => by cases h; exact framed_RHEL7_Fcoe_RHEL7_FcoeData)
    (all_cons (fun c h hl => by cases h; exact framed_RHEL8_Fcoe_RHEL8_FcoeData) (List.forall_mem_nil _)))))))))))))))))))))))))))))))))))))))

theorem framed_iscsi : ∀ y ∈ commandMaps, ∀ c, y.2.lookup c!"iscsi" = some c → c.hasList { attrs := {} } = true → c.Framed := by
  unfold commandMaps
  exact (all_cons (fun c h hl => by cases h; exact framed_F10_Iscsi_F10_IscsiData)
    (all_cons (fun c h hl => by cases h; exact framed_F10_Iscsi_F10_IscsiData)
    (all_cons (fun c h hl => by cases h; exact framed_F10_Iscsi_F10_IscsiData)
    (all_cons (fun c h hl => by cases h; exact framed_F10_Iscsi_F10_IscsiData)
    (all_cons (fun c h hl => by cases h; exact framed_F10_Iscsi_F10_IscsiData)
    (all_cons (fun c h hl => by cases h; exact framed_F10_Iscsi_F10_IscsiData)
    (all_cons (fun c h hl => by cases h; exact framed_F10_Iscsi_F10_IscsiData)
    (all_cons (fun c h hl => by cases h; exact framed_F17_Iscsi_F17_IscsiData)
    (all_cons (fun c h hl => by cases h; exact framed_F17_Iscsi_F17_IscsiData)
    (all_cons (fun c h hl => by cases h; exact framed_F17_Iscsi_F17_IscsiData)
    (all_cons (fun c h hl => by cases h; exact framed_F17_Iscsi_F17_IscsiData)
    (all_cons (fun c h hl => by cases h; exact framed_F17_Iscsi_F17_IscsiData)
    (all_cons (fun c h hl => by cases h; exact framed_F17_Iscsi_F17_IscsiData)
    (all_cons (fun c h hl => by cases h; exact framed_F17_Iscsi_F17_IscsiData)
    (all_cons (fun c h hl => by cases h; exact framed_F17_Iscsi_F17_IscsiData)
    (all_cons (fun c h hl => by cases h; exact framed_F17_Iscsi_F17_IscsiData)
    (all_cons (fun c h hl => by cases h; exact framed_F17_Iscsi_F17_IscsiData)
    (all_cons (fun c h hl => by cases h; exact framed_F17_Iscsi_F17_IscsiData)
    (all_cons (fun c h hl => by cases h; exact framed_F17_Iscsi_F17_IscsiData)
    (all_cons (fun c h hl => by cases h; exact framed_F17_Iscsi_F17_IscsiData)
    (all_cons (fun c h hl => by cases h; exact framed_F17_Iscsi_F17_IscsiData)
    (all_cons (fun c h hl => by cases h; exact framed_F17_Iscsi_F17_IscsiData)
    (all_cons (fun c h hl => by cases h; exact framed_F17_Iscsi_F17_IscsiData)
    (all_cons (fun c h hl => by cases h; exact framed_F17_Iscsi_F17_IscsiData)
    (all_cons (fun c h hl => by cases h; exact framed_F17_Iscsi_F17_IscsiData)
    (all_cons (fun c h hl => by cases h; exact framed_FC6_Iscsi_FC6_IscsiData)
    (all_cons (fun c h hl => by cases h; exact framed_FC6_Iscsi_FC6_IscsiData)
    (all_cons (fun c h hl => by cases h; exact framed_FC6_Iscsi_FC6_IscsiData)
    (all_cons (fun c h hl => by cases h)
    (all_cons (fun c h hl => by cases h)
    (all_cons (fun c h hl => by cases h)
    (all_cons (fun c h hl => by cases h; exact framed_FC6_Iscsi_FC6_IscsiData)
    (all_cons (fun c h hl => by cases h)
    (all_cons (fun c h hl => by cases h)
    (all_cons (fun c h hl => by cases h; exact framed_FC6_Iscsi_FC6_IscsiData)
    (all_cons (fun c h hl => by cases h; exact framed_RHEL6_Iscsi_RHEL6_IscsiData)
    (all_cons (fun c h hl => by cases h; exact framed_F17_Iscsi_F17_IscsiData)
    (all_cons (fun c h hl => by cases h; exact framed_F17_Iscsi_F17_IscsiData) (List.forall_mem_nil _)))))))))))))))))))))))))))))))))))))))

theorem framed_zfcp : ∀ y ∈ commandMaps, ∀ c, y.2.lookup c!"zfcp" = some c → c.hasList { attrs := {} } = true → c.Framed := by
  unfold commandMaps
  exact (all_cons (fun c h hl => by cases h; exact framed_FC3_ZFCP_FC3_ZFCPData)
    (all_cons (fun c h hl => by cases h; exact framed_FC3_ZFCP_FC3_ZFCPData)
    (all_cons (fun c h hl => by cases h; exact framed_F12_ZFCP_F12_ZFCPData)
    (all_cons (fun c h hl => by cases h; exact framed_F12_ZFCP_F12_ZFCPData)
    (all_cons (fun c h hl => by cases h; exact framed_F14_ZFCP_F14_ZFCPData)
    (all_cons (fun c h hl => by cases h; exact framed_F14_ZFCP_F14_ZFCPData)
    (all_cons (fun c h hl => by cases h; exact framed_F14_ZFCP_F14_ZFCPData)
    (all_cons (fun c h hl => by cases h; exact framed_F14_ZFCP_F14_ZFCPData)
    (all_cons (fun c h hl => by cases h; exact framed_F14_ZFCP_F14_ZFCPData)
    (all_cons (fun c h hl => by cases h; exact framed_F14_ZFCP_F14_ZFCPData)
    (all_cons (fun c h hl => by cases h; exact framed_F14_ZFCP_F14_ZFCPData)
    (all_cons (fun c h hl => by cases h; exact framed_F14_ZFCP_F14_ZFCPData)
    (all_cons (fun c h hl => by cases h; exact framed_F14_ZFCP_F14_ZFCPData)
    (all_cons (fun c h hl => by cases h; exact framed_F14_ZFCP_F14_ZFCPData)
    (all_cons (fun c h hl => by cases h; exact framed_F14_ZFCP_F14_ZFCPData)
    (all_cons (fun c h hl => by cases h; exact framed_F14_ZFCP_F14_ZFCPData)
    (all_cons (fun c h hl => by cases h; exact framed_F14_ZFCP_F14_ZFCPData)
    (all_cons (fun c h hl => by cases h; exact framed_F14_ZFCP_F14_ZFCPData)
    (all_cons (fun c h hl => by cases h; exact framed_F14_ZFCP_F14_ZFCPData)
    (all_cons (fun c h hl => by cases h; exact framed_F14_ZFCP_F14_ZFCPData)
    (all_cons (fun c h hl => by cases h; exact framed_F14_ZFCP_F14_ZFCPData)
    (all_cons (fun c h hl => by cases h; exact framed_F14_ZFCP_F14_ZFCPData)
    (all_cons (fun c h hl => by cases h; exact framed_F14_ZFCP_F14_ZFCPData)
    (all_cons (fun c h hl => by cases h; exact framed_F14_ZFCP_F14_ZFCPData)
    (all_cons (fun c h hl => by cases h; exact framed_F14_ZFCP_F14_ZFCPData)
    (all_cons (fun c h hl => by cases h; exact framed_FC3_ZFCP_FC3_ZFCPData)
    (all_cons (fun c h hl => by cases h; exact framed_FC3_ZFCP_FC3_ZFCPData)
    (all_cons (fun c h hl => by cases h; exact framed_FC3_ZFCP_FC3_ZFCPData)
    (all_cons (fun c h hl => by cases h; exact framed_FC3_ZFCP_FC3_ZFCPData)
    (all_cons (fun c h hl => by cases h; exact framed_FC3_ZFCP_FC3_ZFCPData)
    (all_cons (fun c h hl => by cases h; exact framed_FC3_ZFCP_FC3_ZFCPData)
    (all_cons (fun c h hl => by cases h; exact framed_FC3_ZFCP_FC3_ZFCPData)
    (all_cons (fun c h hl => by cases h)
    (all_cons (fun c h hl => by cases h; exact framed_FC3_ZFCP_FC3_ZFCPData)
    (all_cons (fun c h hl => by cases h; exact framed_FC3_ZFCP_FC3_ZFCPData)
    (all_cons (fun c h hl => by cases h; exact framed_F12_ZFCP_F12_ZFCPData)
    (all_cons (fun c h hl => by cases h; exact framed_F14_ZFCP_F14_ZFCPData)
    (all_cons (fun c h hl => by cases h; exact framed_F14_ZFCP_F14_ZFCPData) (List.forall_mem_nil _)))))))))))))))))))))))))))))))))))))))

theorem framed_module : ∀ y ∈ commandMaps, ∀ c, y.2.lookup c!"module" = some c → c.hasList { attrs := {} } = true → c.Framed := by
  unfold commandMaps
  exact (all_cons (fun c h hl => by cases h)
    (all_cons (fun c h hl => by cases h)
    (all_cons (fun c h hl => by cases h)
    (all_cons (fun c h hl => by cases h)
    (all_cons (fun c h hl => by cases h)
    (all_cons (fun c h hl => by cases h)
    (all_cons (fun c h hl => by cases h)
    (all_cons (fun c h hl => by cases h)
    (all_cons (fun c h hl => by cases h)
    (all_cons (fun c h hl => by cases h)
    (all_cons (fun c h hl => by cases h)
    (all_cons (fun c h hl => by cases h)
    (all_cons (fun c h hl => by cases h)
    (all_cons (fun c h hl => by cases h)
    (all_cons (fun c h hl => by cases h)
    (all_cons (fun c h hl => by cases h)
    (all_cons (fun c h hl => by cases h)
    (all_cons (fun c h hl => by cases h)
    (all_cons (fun c h hl => by cases h)
    (all_cons (fun c h hl => by cases h; exact framed_F29_Module_F29_ModuleData)
    (all_cons (fun c h hl => by cases h; exact framed_F29_Module_F29_ModuleData)
    (all_cons (fun c h hl => by cases h; exact framed_F31_Module_F31_ModuleData)
    (all_cons (fun c h hl => by cases h; exact framed_F31_Module_F31_ModuleData)
    (all_cons (fun c h hl => by cases h; exact framed_F31_Module_F31_ModuleData)
    (all_cons (fun c h hl => by cases h; exact framed_F31_Module_F31_ModuleData)
    (all_cons (fun c h hl => by cases h)
    (all_cons (fun c h hl => by cases h)
    (all_cons (fun c h hl => by cases h)
    (all_cons (fun c h hl => by cases h)
    (all_cons (fun c h hl => by cases h)
    (all_cons (fun c h hl => by cases h)
    (all_cons (fun c h hl => by cases h)
    (all_cons (fun c h hl => by cases h)
    (all_cons (fun c h hl => by cases h)
    (all_cons (fun c h hl => by cases h)
    (all_cons (fun c h hl => by cases h)
    (all_cons (fun c h hl => by cases h)
    (all_cons (fun c h hl => by cases h; exact framed_RHEL8_Module_RHEL8_ModuleData) (List.forall_mem_nil _)))))))))))))))))))))))))))))))))))))))

theorem framed_timesource : ∀ y ∈ commandMaps, ∀ c, y.2.lookup c!"timesource" = some c → c.hasList { attrs := {} } = true → c.Framed := by
  unfold commandMaps
  exact (all_cons (fun c h hl => by cases h)
    (all_cons (fun c h hl => by cases h)
    (all_cons (fun c h hl => by cases h)
    (all_cons (fun c h hl => by cases h)
    (all_cons (fun c h hl => by cases h)
    (all_cons (fun c h hl => by cases h)
    (all_cons (fun c h hl => by cases h)
    (all_cons (fun c h hl => by cases h)
    (all_cons (fun c h hl => by cases h)
    (all_cons (fun c h hl => by cases h)
    (all_cons (fun c h hl => by cases h)
    (all_cons (fun c h hl => by cases h)
    (all_cons (fun c h hl => by cases h)
    (all_cons (fun c h hl => by cases h)
    (all_cons (fun c h hl => by cases h)
    (all_cons (fun c h hl => by cases h)
    (all_cons (fun c h hl => by cases h)
    (all_cons (fun c h hl => by cases h)
    (all_cons (fun c h hl => by cases h)
    (all_cons (fun c h hl => by cases h)
    (all_cons (fun c h hl => by cases h)
    (all_cons (fun c h hl => by cases h)
    (all_cons (fun c h hl => by cases h)
    (all_cons (fun c h hl => by cases h; exact framed_F33_Timesource_F33_TimesourceData)
    (all_cons (fun c h hl => by cases h; exact framed_F33_Timesource_F33_TimesourceData)
    (all_cons (fun c h hl => by cases h)
    (all_cons (fun c h hl => by cases h)
    (all_cons (fun c h hl => by cases h)
    (all_cons (fun c h hl => by cases h)
    (all_cons (fun c h hl => by cases h)
    (all_cons (fun c h hl => by cases h)
    (all_cons (fun c h hl => by cases h)
    (all_cons (fun c h hl => by cases h)
    (all_cons (fun c h hl => by cases h)
    (all_cons (fun c h hl => by cases h)
    (all_cons (fun c h hl => by cases h)
    (all_cons (fun c h hl => by cases h)
    (all_cons (fun c h hl => by cases h) (List.forall_mem_nil _)))))))))))))))))))))))))))))))))))))))

theorem framed_all : ∀ n ∈ [c!"part", c!"partition", c!"logvol", c!"network", c!"repo", c!"device", c!"user", c!"group", c!"fcoe", c!"iscsi", c!"zfcp", c!"module", c!"timesource"],
    ∀ y ∈ commandMaps, ∀ c, y.2.lookup n = some c → c.hasList { attrs := {} } = true → c.Framed :=
  all_cons framed_part (all_cons framed_partition (all_cons framed_logvol (all_cons framed_network (all_cons framed_repo (all_cons framed_device (all_cons framed_user (all_cons framed_group (all_cons framed_fcoe (all_cons framed_iscsi (all_cons framed_zfcp (all_cons framed_module (all_cons framed_timesource ((List.forall_mem_nil _))))))))))))))

end Ks.Cmd
