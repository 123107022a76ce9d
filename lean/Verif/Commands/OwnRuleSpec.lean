import Verif.Commands.RuleSpec
/-!
# What the attributes of a command satisfy after a line

The rules the documentation of the commands states, for the commands that keep what they read in attributes
of their own.
-/
namespace Ks

instance (d : Ns) (k : Str) : Decidable (d.on k) := inferInstanceAs (Decidable (_ = true))

/-- A rule for a command: the versions that have it, and what the arguments of an accepted line and the
attributes of the command after it satisfy. -/
structure OwnRule where
  cmd : Str
  versions : Nat → Bool
  holds : List Str → Ns → Prop

/-- The rules that hold after every line that is accepted, whatever lines came before. -/
def ownRules : List OwnRule := [
  { cmd := c!"autopart", versions := fun v => decide (v < Version.F9) && v != Version.RHEL5, holds := fun args _ => args = [] },
  { cmd := c!"autopart", versions := fun _ => true, holds := fun _ a => a.getD c!"autopart" = .bool true },
  { cmd := c!"autopart", versions := fun v => decide (Version.F21 ≤ v), holds := fun _ a => a.getD c!"fstype" ≠ .str c!"btrfs" },
  -- the type is a number: 1 for `btrfs`
  { cmd := c!"autopart", versions := fun v => decide (Version.F21 ≤ v), holds := fun _ a => a.getD c!"type" = .int 1 → ¬ a.on c!"fstype" },
  { cmd := c!"autopart", versions := fun v => decide (Version.F29 ≤ v) || v == Version.RHEL8,
    holds := fun _ a => ¬ (a.on c!"pbkdf_time" ∧ a.on c!"pbkdf_iterations") },
  { cmd := c!"autopart", versions := fun v => v == Version.RHEL8, holds := fun _ a => a.getD c!"type" ≠ .int 1 },
  { cmd := c!"bootloader", versions := fun v => decide (Version.F17 ≤ v), holds := fun _ a => ∀ s, a.getD c!"bootDrive" = .str s → ',' ∉ s },
  { cmd := c!"cdrom", versions := fun _ => true, holds := fun args _ => args = [] },
  { cmd := c!"hmc", versions := fun _ => true, holds := fun args _ => args = [] },
  { cmd := c!"eula", versions := fun _ => true, holds := fun _ a => a.on c!"agreed" },
  { cmd := c!"harddrive", versions := fun v => decide (v < Version.F33),
    holds := fun _ a => a.getD c!"biospart" = .none ∧ a.getD c!"partition" ≠ .none ∨ a.getD c!"biospart" ≠ .none ∧ a.getD c!"partition" = .none },
  { cmd := c!"ignoredisk", versions := fun v => decide (Version.F8 ≤ v) && decide (v < Version.F14) && v != Version.RHEL6 || decide (Version.F29 ≤ v) || v == Version.RHEL4 || v == Version.RHEL5 || v == Version.RHEL8,
    holds := fun _ a => a.on c!"ignoredisk" ∧ ¬ a.on c!"onlyuse" ∨ ¬ a.on c!"ignoredisk" ∧ a.on c!"onlyuse" },
  { cmd := c!"ignoredisk", versions := fun v => decide (Version.F14 ≤ v) && decide (v < Version.F29) && v != Version.RHEL8 || v == Version.RHEL6,
    holds := fun _ a => a.on c!"ignoredisk" ∧ ¬ a.on c!"onlyuse" ∧ ¬ a.on c!"interactive" ∨ ¬ a.on c!"ignoredisk" ∧ a.on c!"onlyuse" ∧ ¬ a.on c!"interactive" ∨
      ¬ a.on c!"ignoredisk" ∧ ¬ a.on c!"onlyuse" ∧ a.on c!"interactive" },
  { cmd := c!"logging", versions := fun _ => true, holds := fun _ a => a.on c!"port" → a.on c!"host" },
  { cmd := c!"ostreesetup", versions := fun _ => true, holds := fun _ a => ∃ s, a.getD c!"url" = .str s ∧
      (startsWith s c!"file:" = true ∨ startsWith s c!"http:" = true ∨ startsWith s c!"https:" = true) },
  { cmd := c!"ostreesetup", versions := fun _ => true, holds := fun _ a => a.on c!"remote" ∨ a.getD c!"remote" = a.getD c!"osname" },
  { cmd := c!"rescue", versions := fun _ => true, holds := fun _ a => a.getD c!"rescue" = .bool true },
  { cmd := c!"rootpw", versions := fun v => decide (v < Version.F18), holds := fun _ a => a.on c!"password" },
  { cmd := c!"rootpw", versions := fun v => decide (Version.F18 ≤ v), holds := fun _ a => a.on c!"password" ∨ a.on c!"lock" },
  { cmd := c!"services", versions := fun _ => true, holds := fun _ a => a.on c!"disabled" ∨ a.on c!"enabled" },
  { cmd := c!"timezone", versions := fun v => decide (Version.F18 ≤ v), holds := fun _ a => ¬ (a.on c!"nontp" ∧ a.on c!"ntpservers") },
  { cmd := c!"timezone", versions := fun v => decide (Version.F25 ≤ v) || v == Version.RHEL7, holds := fun args _ => args ≠ [] },
  { cmd := c!"upgrade", versions := fun v => decide (Version.F11 ≤ v) && decide (v < Version.F20), holds := fun _ a => a.getD c!"root_device" ≠ .str [] },
  { cmd := c!"url", versions := fun v => decide (Version.F18 ≤ v), holds := fun _ a => a.on c!"url" ∨ a.on c!"mirrorlist" ∨ a.on c!"metalink" }]

/-- The rules that hold after the first line of a command. -/
def firstRules : List OwnRule := [
  { cmd := c!"rescue", versions := fun _ => true, holds := fun _ a => ¬ (a.on c!"nomount" ∧ a.on c!"romount") },
  { cmd := c!"rhsm", versions := fun _ => true, holds := fun _ a => ∀ k ∈ (a.getD c!"activation_keys").items, k ≠ [] },
  { cmd := c!"url", versions := fun v => decide (Version.F18 ≤ v),
    holds := fun _ a => ¬ (a.on c!"url" ∧ a.on c!"mirrorlist") ∧ ¬ (a.on c!"url" ∧ a.on c!"metalink") ∧ ¬ (a.on c!"mirrorlist" ∧ a.on c!"metalink") }]

end Ks
