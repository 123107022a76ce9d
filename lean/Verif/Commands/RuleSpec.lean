import Verif.Commands.Base
import Verif.Version
/-!
# What the data objects of the handler satisfy

The rules the documentation of the commands states, as properties of the objects in the data lists.
-/
namespace Ks

/-- `bool(d.k)` -/
def Ns.on (d : Ns) (k : Str) : Prop := (d.getD k).truthy = true

/-- `logvol`: what is thin has a pool and is none; sizes for the metadata are given for pools only; a
volume that is not formatted exists already; a size is given once, and a percentage is one. -/
structure LogvolRules (v : Nat) (d : Ns) : Prop where
  noformat : ¬ d.on c!"format" → d.on c!"preexist"
  resize : Version.F17 ≤ v → d.on c!"resize" → d.on c!"preexist" ∧ d.on c!"size"
  thin : Version.F20 ≤ v ∨ v = Version.RHEL6 → d.on c!"thin_volume" → ¬ d.on c!"thin_pool" ∧ d.on c!"pool_name"
  pool : Version.F20 ≤ v ∨ v = Version.RHEL6 → d.on c!"chunk_size" ∨ d.on c!"metadata_size" → d.on c!"thin_pool"
  size : Version.F20 ≤ v → d.on c!"preexist" ∨ d.on c!"percent" ∨ d.on c!"size" ∨ d.on c!"recommended" ∨ d.on c!"hibernation"
  percent : Version.F20 ≤ v → d.getD c!"percent" = .none ∨ 0 ≤ (d.getD c!"percent").num ∧ (d.getD c!"percent").num ≤ 100
  one : Version.F21 ≤ v → ¬ (d.on c!"size" ∧ d.on c!"percent")
  mkfs : Version.F23 ≤ v ∨ v = Version.RHEL7 → d.on c!"mkfsopts" → d.on c!"format" ∧ ¬ d.on c!"fsprofile"
  cache : Version.F23 ≤ v → d.on c!"cache_size" ∨ d.on c!"cache_mode" ∨ d.on c!"cache_pvs" →
    d.on c!"cache_pvs" ∧ d.on c!"cache_size" ∧ ¬ d.on c!"preexist" ∧ ¬ d.on c!"thin_volume"
  mode : Version.F23 ≤ v → d.on c!"cache_mode" → d.getD c!"cache_mode" = .str c!"writeback" ∨ d.getD c!"cache_mode" = .str c!"writethrough"
  pbkdf : Version.F29 ≤ v ∨ v = Version.RHEL8 → ¬ (d.on c!"pbkdf_time" ∧ d.on c!"pbkdf_iterations")
  btrfs : v = Version.RHEL8 → d.getD c!"fstype" ≠ .str c!"btrfs"

/-- `part`: only an existing partition is resized, and to a given size; a `tmpfs` does not grow. -/
structure PartRules (v : Nat) (d : Ns) : Prop where
  resize : Version.F17 ≤ v → d.on c!"resize" → d.on c!"onPart" ∧ d.on c!"size"
  tmpfs : Version.F20 ≤ v → d.getD c!"fstype" = .str c!"tmpfs" → ¬ d.on c!"grow" ∧ (d.getD c!"maxSizeMB").pyEq (.int 0) = true
  mkfs : Version.F23 ≤ v ∨ v = Version.RHEL7 → d.on c!"mkfsopts" → d.on c!"format" ∧ ¬ d.on c!"fsprofile"
  pbkdf : Version.F29 ≤ v ∨ v = Version.RHEL8 → ¬ (d.on c!"pbkdf_time" ∧ d.on c!"pbkdf_iterations")
  btrfs : v = Version.RHEL8 → d.getD c!"fstype" ≠ .str c!"btrfs" ∧ ¬ (d.getD c!"mountpoint").startsWith c!"btrfs."

/-- `raid`: a new array has a level and members, an existing one has a device and no members; one that
is not formatted exists already. -/
structure RaidRules (v : Nat) (d : Ns) : Prop where
  new : ¬ d.on c!"preexist" → d.on c!"level" ∧ d.on c!"members"
  old : d.on c!"preexist" → d.getD c!"device" ≠ .str [] ∧ ¬ d.on c!"members"
  noformat : ¬ d.on c!"format" → d.on c!"preexist"
  mkfs : Version.F23 ≤ v ∨ v = Version.RHEL7 → d.on c!"mkfsopts" → d.on c!"format" ∧ ¬ d.on c!"fsprofile"
  pbkdf : Version.F29 ≤ v ∨ v = Version.RHEL8 → ¬ (d.on c!"pbkdf_time" ∧ d.on c!"pbkdf_iterations")
  btrfs : v = Version.RHEL8 → d.getD c!"fstype" ≠ .str c!"btrfs"

/-- `volgroup`: a new group has members, an existing one has none; the reserved space is not negative, and
the reserved percentage is strictly between 0 and 100. -/
structure VolgroupRules (v : Nat) (d : Ns) : Prop where
  new : ¬ d.on c!"preexist" → d.on c!"physvols"
  old : d.on c!"preexist" → ¬ d.on c!"physvols"
  noformat : ¬ d.on c!"format" → d.on c!"preexist"
  space : Version.F16 ≤ v ∨ v = Version.RHEL6 → d.getD c!"reserved_space" = .none ∨ 0 ≤ (d.getD c!"reserved_space").num
  percent : Version.F16 ≤ v ∨ v = Version.RHEL6 → d.getD c!"reserved_percent" = .none ∨
    0 < (d.getD c!"reserved_percent").num ∧ (d.getD c!"reserved_percent").num < 100

/-- `mount`: the mount point is absolute, or `none`; file system options are for new file systems only. -/
structure MountRules (d : Ns) : Prop where
  point : ((d.getD c!"mount_point").mapStr lower).pyEq (.str c!"none") = true ∨ (d.getD c!"mount_point").startsWith c!"/" = true
  mkfs : d.on c!"mkfs_opts" → d.getD c!"reformat" ≠ .bool false

/-- `nvdimm`: one way to name the device; a device to be reconfigured is a namespace, and a sector mode has
a sector size. -/
structure NvdimmRules (d : Ns) : Prop where
  one : ¬ (d.on c!"namespace" ∧ d.on c!"blockdevs")
  reconfigure : d.getD c!"action" = .str c!"reconfigure" → d.on c!"namespace" ∧ (d.getD c!"mode" = .str c!"sector" → d.on c!"sectorsize")
  use : d.getD c!"action" = .str c!"use" → d.on c!"namespace" ∨ d.on c!"blockdevs"

/-- `btrfs`: there are devices, and a subvolume has a name; what is not formatted exists already. -/
structure BtrfsRules (v : Nat) (d : Ns) : Prop where
  devices : d.on c!"devices"
  subvol : d.on c!"subvol" → d.on c!"name"
  format : d.on c!"format" ↔ ¬ d.on c!"preexist"
  mkfs : Version.F23 ≤ v ∨ v = Version.RHEL7 → d.on c!"mkfsopts" → d.on c!"format" ∧ ¬ d.on c!"preexist"

/-- `snapshot`: the origin is a volume group and a volume, and it is said when to take the snapshot. -/
structure SnapshotRules (d : Ns) : Prop where
  when : d.getD c!"when" ≠ .none
  origin : ∃ vg lv, vg ≠ [] ∧ lv ≠ [] ∧ (d.getD c!"origin").split '/' = .list [vg, lv]

/-- `network`: options of a bridge are for bridges; IPv4 is configured or not. -/
structure NetworkRules (v : Nat) (d : Ns) : Prop where
  bridge : Version.F22 ≤ v ∨ v = Version.RHEL7 → d.on c!"bridgeopts" → d.on c!"bridgeslaves"
  ipv4 : Version.F24 ≤ v → d.on c!"noipv4" → d.getD c!"bootProto" = .str []
  bindto : Version.F27 ≤ v ∨ v = Version.RHEL7 → d.getD c!"bindto" = .str c!"mac" → d.on c!"vlanid" → d.on c!"bondopts"

/-- `repo`: one address at most, and before F15 (and in RHEL5) one at least. -/
structure RepoRules (v : Nat) (d : Ns) : Prop where
  one : ¬ (d.on c!"baseurl" ∧ d.on c!"mirrorlist")
  metalink : Version.F27 ≤ v → ¬ (d.on c!"metalink" ∧ (d.on c!"baseurl" ∨ d.on c!"mirrorlist"))
  some : v < Version.F15 → d.on c!"baseurl" ∨ d.on c!"mirrorlist"

/-- `timesource`: exactly one of a server, a pool and no synchronisation. -/
structure TimesourceRules (d : Ns) : Prop where
  some : d.on c!"ntp_server" ∨ d.on c!"ntp_pool" ∨ d.on c!"ntp_disable"
  one : ¬ (d.on c!"ntp_server" ∧ d.on c!"ntp_pool") ∧ ¬ (d.on c!"ntp_server" ∧ d.on c!"ntp_disable") ∧ ¬ (d.on c!"ntp_pool" ∧ d.on c!"ntp_disable")

/-- `driverdisk`: exactly one of a partition, a source and a BIOS disk. -/
structure DriverdiskRules (v : Nat) (d : Ns) : Prop where
  one : ¬ (d.on c!"partition" ∧ d.on c!"source")
  some : (∃ w, d.getD c!"partition" = .str w) ∨ d.on c!"source" ∨ Version.RHEL4 ≤ v ∧ d.on c!"biospart"
  bios : Version.RHEL4 ≤ v → d.on c!"biospart" → ¬ d.on c!"partition" ∧ ¬ d.on c!"source"

end Ks
