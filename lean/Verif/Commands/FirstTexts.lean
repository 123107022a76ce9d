import Verif.Commands.FirstTexts1
import Verif.Commands.FirstTexts2
/-!
# The classes of the command maps write what the table says

Written by `scripts/gen_texts.py`.
-/
namespace Ks

open Cmd

theorem commandTexts_written : ∀ e ∈ commandTexts, e.Written :=
  (all_cons writes_btrfsTexts
  (all_cons writes_cdromTexts
  (all_cons writes_cmdlineTexts
  (all_cons writes_dmraidTexts
  (all_cons writes_firewallTexts
  (all_cons writes_firstbootTexts
  (all_cons writes_graphicalTexts
  (all_cons writes_hmcTexts
  (all_cons writes_installTexts
  (all_cons writes_interactiveTexts
  (all_cons writes_iscsinameTexts
  (all_cons writes_keyTexts
  (all_cons writes_keyboardTexts
  (all_cons writes_langsupportTexts
  (all_cons writes_liloTexts
  (all_cons writes_lilocheckTexts
  (all_cons writes_mediacheckTexts
  (all_cons writes_mountTexts
  (all_cons writes_multipathTexts
  (all_cons writes_nvdimmTexts
  (all_cons writes_raidTexts
  (all_cons writes_rhsmTexts
  (all_cons writes_rootpwTexts
  (all_cons writes_skipxTexts
  (all_cons writes_snapshotTexts
  (all_cons writes_syspurposeTexts
  (all_cons writes_textTexts
  (all_cons writes_unsupportedHardwareTexts
  (all_cons writes_updatesTexts
  (all_cons writes_upgradeTexts
  (all_cons writes_volgroupTexts
  (all_cons writes_zerombrTexts
  (List.forall_mem_nil _)))))))))))))))))))))))))))))))))

end Ks
