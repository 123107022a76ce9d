import Verif.Commands.FirstLines1
import Verif.Commands.FirstLines2
import Verif.Commands.FirstLines3
import Verif.Commands.FirstLines4
import Verif.Commands.FirstLines5
import Verif.Commands.FirstLines6
import Verif.Commands.FirstLines7
import Verif.Commands.FirstLines8
/-!
# All lines of the table

Written by `scripts/gen_lines.py`.
-/
namespace Ks

open Cmd

theorem commandLines_obeyed : ∀ e ∈ commandLines, e.Obeyed :=
  (all_cons obeys_autopartLines (all_cons obeys_autostepLines (all_cons obeys_bootloaderLines (all_cons obeys_btrfsLines (all_cons obeys_btrfsLines2 (all_cons obeys_btrfsLines3 (all_cons obeys_cdromLines (all_cons obeys_clearpartLines (all_cons obeys_clearpartLines2 (all_cons obeys_cmdlineLines (all_cons obeys_deviceLines (all_cons obeys_deviceLines2 (all_cons obeys_dmraidLines (all_cons obeys_driverdiskLines (all_cons obeys_driverdiskLines2 (all_cons obeys_driverdiskLines3 (all_cons obeys_eulaLines (all_cons obeys_fcoeLines (all_cons obeys_firewallLines (all_cons obeys_firstbootLines (all_cons obeys_graphicalLines (all_cons obeys_groupLines (all_cons obeys_haltLines (all_cons obeys_harddriveLines (all_cons obeys_harddriveLines2 (all_cons obeys_hmcLines (all_cons obeys_ignorediskLines (all_cons obeys_ignorediskLines2 (all_cons obeys_ignorediskLines3 (all_cons obeys_installLines (all_cons obeys_interactiveLines (all_cons obeys_iscsiLines (all_cons obeys_iscsinameLines (all_cons obeys_keyLines (all_cons obeys_keyLines2 (all_cons obeys_keyboardLines (all_cons obeys_keyboardLines2 (all_cons obeys_langLines (all_cons obeys_langsupportLines (all_cons obeys_liloLines (all_cons obeys_lilocheckLines (all_cons obeys_liveimgLines (all_cons obeys_loggingLines (all_cons obeys_loggingLines2 (all_cons obeys_logvolLines (all_cons obeys_logvolLines2 (all_cons obeys_logvolLines3 (all_cons obeys_logvolLines4 (all_cons obeys_logvolLines5 (all_cons obeys_logvolLines6 (all_cons obeys_mediacheckLines (all_cons obeys_moduleLines (all_cons obeys_monitorLines (all_cons obeys_mountLines (all_cons obeys_mountLines2 (all_cons obeys_mouseLines (all_cons obeys_networkLines (all_cons obeys_networkLines2 (all_cons obeys_networkLines3 (all_cons obeys_networkLines4 (all_cons obeys_nfsLines (all_cons obeys_nvdimmLines (all_cons obeys_nvdimmLines2 (all_cons obeys_ostreesetupLines (all_cons obeys_partLines (all_cons obeys_partLines2 (all_cons obeys_partitionLines (all_cons obeys_partitionLines2 (all_cons obeys_poweroffLines (all_cons obeys_raidLines (all_cons obeys_raidLines2 (all_cons obeys_raidLines3 (all_cons obeys_raidLines4 (all_cons obeys_rebootLines (all_cons obeys_repoLines (all_cons obeys_repoLines2 (all_cons obeys_repoLines3 (all_cons obeys_reqpartLines (all_cons obeys_rescueLines (all_cons obeys_rhsmLines (all_cons obeys_rootpwLines (all_cons obeys_rootpwLines2 (all_cons obeys_selinuxLines (all_cons obeys_servicesLines (all_cons obeys_servicesLines2 (all_cons obeys_shutdownLines (all_cons obeys_skipxLines (all_cons obeys_snapshotLines (all_cons obeys_sshkeyLines (all_cons obeys_sshpwLines (all_cons obeys_syspurposeLines (all_cons obeys_syspurposeLines2 (all_cons obeys_textLines (all_cons obeys_timesourceLines (all_cons obeys_timesourceLines2 (all_cons obeys_timesourceLines3 (all_cons obeys_timezoneLines (all_cons obeys_timezoneLines2 (all_cons obeys_unsupportedHardwareLines (all_cons obeys_updatesLines (all_cons obeys_updatesLines2 (all_cons obeys_upgradeLines (all_cons obeys_urlLines (all_cons obeys_urlLines2 (all_cons obeys_urlLines3 (all_cons obeys_userLines (all_cons obeys_vncLines (all_cons obeys_volgroupLines (all_cons obeys_volgroupLines2 (all_cons obeys_volgroupLines3 (all_cons obeys_xconfigLines (all_cons obeys_zerombrLines (all_cons obeys_zfcpLines (all_cons obeys_zfcpLines2 (all_cons obeys_ziplLines (List.forall_mem_nil _))))))))))))))))))))))))))))))))))))))))))))))))))))))))))))))))))))))))))))))))))))))))))))))))))))))))))))))))))))

end Ks
