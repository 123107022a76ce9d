import Verif.Commands.Sheets
/-!
# Objects whose text is a line of its own
-/
namespace Ks

/-- The attributes that have to have a value that is not empty or zero, because the command asks for the option. -/
def needs (n : Str) (v : Nat) : List Str :=
  if n = c!"logvol" then [c!"name", c!"vgname"]
  else if n = c!"fcoe" then [c!"nic"]
  else if n = c!"iscsi" then [c!"ipaddr"]
  else if n = c!"zfcp" then [c!"devnum", c!"fcplun", c!"wwpn"] ++ if v < Version.F12 then [c!"scsiid", c!"scsilun"] else []
  else if n ∈ [c!"repo", c!"user", c!"group", c!"module"] then [c!"name"]
  else []

/-- The attributes that have to have the value they have without options, because the text is not read back. -/
def unread (n : Str) : List Str := if n = c!"network" then [c!"teamslaves"] else []

end Ks
