import Verif.Commands.TextSpec
import Verif.Version
/-!
# What the commands write after their first lines

Commands whose texts the read-back theorems (C61, C62) say nothing about.
Written by `scripts/gen_texts.py` from `scripts/texts.json`.
-/
namespace Ks

open Version

/-- What `btrfs` writes. -/
def btrfsTexts : CommandTexts where
  cmd := c!"btrfs"
  texts := [
    ⟨[(F17, F28), (F29, F34)], fun _ => [c!"/x", c!"a"], fun _ => c!"btrfs /x a\n"⟩,
    ⟨[(F17, F28), (F29, F34)], fun _ => [c!"/x", c!"a", c!"--noformat"], fun _ => c!"btrfs /x --noformat --useexisting a\n"⟩,
    ⟨[(F17, F28), (F29, F34)], fun _ => [c!"/x", c!"a", c!"--useexisting"], fun _ => c!"btrfs /x --noformat --useexisting a\n"⟩,
    ⟨[(F17, F28), (F29, F34)], fun x => [c!"/x", c!"a", c!"--label=" ++ x], fun x => c!"btrfs /x --label=" ++ x ++ c!" a\n"⟩,
    ⟨[(F17, F28), (F29, F34)], fun _ => [c!"/x", c!"a", c!"--data=raid0"], fun _ => c!"btrfs /x --data=raid0 a\n"⟩,
    ⟨[(F17, F28), (F29, F34)], fun _ => [c!"/x", c!"a", c!"--data=raid1"], fun _ => c!"btrfs /x --data=raid1 a\n"⟩,
    ⟨[(F17, F28), (F29, F34)], fun _ => [c!"/x", c!"a", c!"--data=raid10"], fun _ => c!"btrfs /x --data=raid10 a\n"⟩,
    ⟨[(F17, F28), (F29, F34)], fun _ => [c!"/x", c!"a", c!"--data=single"], fun _ => c!"btrfs /x --data=single a\n"⟩,
    ⟨[(F17, F28), (F29, F34)], fun _ => [c!"/x", c!"a", c!"--metadata=raid0"], fun _ => c!"btrfs /x --metadata=raid0 a\n"⟩,
    ⟨[(F17, F28), (F29, F34)], fun _ => [c!"/x", c!"a", c!"--metadata=raid1"], fun _ => c!"btrfs /x --metadata=raid1 a\n"⟩,
    ⟨[(F17, F28), (F29, F34)], fun _ => [c!"/x", c!"a", c!"--metadata=raid10"], fun _ => c!"btrfs /x --metadata=raid10 a\n"⟩,
    ⟨[(F17, F28), (F29, F34)], fun _ => [c!"/x", c!"a", c!"--metadata=single"], fun _ => c!"btrfs /x --metadata=single a\n"⟩,
    ⟨[(F17, F28), (F29, F34)], fun x => [c!"/x", c!"a", c!"--parent=" ++ x], fun _ => c!"btrfs /x a\n"⟩,
    ⟨[(F17, F28), (F29, F34)], fun x => [c!"/x", c!"a", c!"--name=" ++ x], fun _ => c!"btrfs /x a\n"⟩,
    ⟨[(F17, F28), (F29, F34)], fun _ => [c!"/x", c!"--label=l", c!"--data=raid1", c!"--metadata=raid0", c!"a", c!"b"], fun _ => c!"btrfs /x --label=l --data=raid1 --metadata=raid0 a b\n"⟩,
    ⟨[(F17, F28), (F29, F34)], fun _ => [c!"none", c!"a"], fun _ => c!"btrfs none a\n"⟩,
    ⟨[(F17, F28), (F29, F34)], fun _ => [c!"/x", c!"--subvol", c!"--name=s", c!"LABEL=l"], fun _ => c!"btrfs /x --subvol --name=s LABEL=l\n"⟩,
    ⟨[(F17, F28), (F29, F34)], fun x => [c!"/x", c!"--subvol", c!"--name=s", c!"LABEL=l", c!"--parent=" ++ x], fun _ => c!"btrfs /x --subvol --name=s LABEL=l\n"⟩,
    ⟨[(F17, F28), (F29, F34)], fun _ => [c!"/x", c!"--noformat", c!"LABEL=l"], fun _ => c!"btrfs /x --noformat --useexisting LABEL=l\n"⟩,
    ⟨[(F17, F28), (F29, F34)], fun _ => [c!"/x", c!"--noformat", c!"LABEL=l", c!"--useexisting"], fun _ => c!"btrfs /x --noformat --useexisting LABEL=l\n"⟩,
    ⟨[(RHEL7, RHEL7), (F23, F28), (F29, F34)], fun x => [c!"/x", c!"a", c!"--mkfsoptions=" ++ x], fun x => c!"btrfs /x --mkfsoptions=\"" ++ x ++ c!"\" a\n"⟩]

/-- What `cdrom` writes. -/
def cdromTexts : CommandTexts where
  cmd := c!"cdrom"
  texts := [
    ⟨[(RHEL3, F34)], fun _ => [], fun _ => c!"# Use CDROM installation media\ncdrom\n"⟩]

/-- What `cmdline` writes. -/
def cmdlineTexts : CommandTexts where
  cmd := c!"cmdline"
  texts := [
    ⟨[(RHEL3, F34)], fun _ => [], fun _ => c!"cmdline\n"⟩]

/-- What `dmraid` writes. -/
def dmraidTexts : CommandTexts where
  cmd := c!"dmraid"
  texts := [
    ⟨[(FC6, F23)], fun _ => [c!"--name=n", c!"--dev=d"], fun _ => c!"dmraid --name=n --dev=\"d\"\n"⟩,
    ⟨[(FC6, F23)], fun _ => [c!"--name=n", c!"--dev=d", c!"--name=QX"], fun _ => c!"dmraid --name=QX --dev=\"d\"\n"⟩,
    ⟨[(FC6, F23)], fun x => [c!"--name=n", c!"--dev=d", c!"--dev=" ++ x], fun x => c!"dmraid --name=n --dev=\"d\" --dev=\"" ++ x ++ c!"\"\n"⟩,
    ⟨[(FC6, F23)], fun _ => [c!"--name=n", c!"--dev=a", c!"--dev=b"], fun _ => c!"dmraid --name=n --dev=\"a\" --dev=\"b\"\n"⟩,
    ⟨[(FC6, F23)], fun _ => [c!"--name=/dev/mapper/n", c!"--dev=d"], fun _ => c!"dmraid --name=n --dev=\"d\"\n"⟩]

/-- What `firewall` writes. -/
def firewallTexts : CommandTexts where
  cmd := c!"firewall"
  texts := [
    ⟨[(RHEL3, F34)], fun _ => [], fun _ => c!"# Firewall configuration\nfirewall --enabled\n"⟩,
    ⟨[(RHEL3, F34)], fun _ => [c!"--disable"], fun _ => c!"# Firewall configuration\nfirewall --disabled\n"⟩,
    ⟨[(RHEL3, F34)], fun _ => [c!"--disabled"], fun _ => c!"# Firewall configuration\nfirewall --disabled\n"⟩,
    ⟨[(RHEL3, F34)], fun _ => [c!"--enable"], fun _ => c!"# Firewall configuration\nfirewall --enabled\n"⟩,
    ⟨[(RHEL3, F34)], fun _ => [c!"--enabled"], fun _ => c!"# Firewall configuration\nfirewall --enabled\n"⟩,
    ⟨[(RHEL3, F34)], fun _ => [c!"--port=QX:tcp"], fun _ => c!"# Firewall configuration\nfirewall --enabled --port=QX:tcp\n"⟩,
    ⟨[(RHEL3, F34)], fun _ => [c!"--trust=QX"], fun _ => c!"# Firewall configuration\nfirewall --enabled --trust=QX\n"⟩,
    ⟨[(F10, F34)], fun _ => [c!"--service=QX"], fun _ => c!"# Firewall configuration\nfirewall --enabled --service=QX\n"⟩,
    ⟨[(F10, F34)], fun _ => [c!"--ftp"], fun _ => c!"# Firewall configuration\nfirewall --enabled --service=ftp\n"⟩,
    ⟨[(RHEL3, F9)], fun _ => [c!"--ftp"], fun _ => c!"# Firewall configuration\nfirewall --enabled --port=21:tcp\n"⟩,
    ⟨[(F10, F34)], fun _ => [c!"--http"], fun _ => c!"# Firewall configuration\nfirewall --enabled --service=http\n"⟩,
    ⟨[(RHEL3, F9)], fun _ => [c!"--http"], fun _ => c!"# Firewall configuration\nfirewall --enabled --port=80:tcp,443:tcp\n"⟩,
    ⟨[(F10, F34)], fun _ => [c!"--smtp"], fun _ => c!"# Firewall configuration\nfirewall --enabled --service=smtp\n"⟩,
    ⟨[(RHEL3, F9)], fun _ => [c!"--smtp"], fun _ => c!"# Firewall configuration\nfirewall --enabled --port=25:tcp\n"⟩,
    ⟨[(F10, F34)], fun _ => [c!"--ssh"], fun _ => c!"# Firewall configuration\nfirewall --enabled --service=ssh\n"⟩,
    ⟨[(RHEL3, F9)], fun _ => [c!"--ssh"], fun _ => c!"# Firewall configuration\nfirewall --enabled --port=22:tcp\n"⟩,
    ⟨[(F10, RHEL6)], fun x => [c!"--telnet=" ++ x], fun _ => c!"# Firewall configuration\nfirewall --enabled\n"⟩,
    ⟨[(RHEL3, F34)], fun _ => [c!"--port=ssh:tcp,telnet:tcp,smtp:tcp,http:tcp,ftp:tcp,imap:udp,99"], fun _ => c!"# Firewall configuration\nfirewall --enabled --ssh --telnet --smtp --http --ftp --port=imap:udp,99:tcp\n"⟩,
    ⟨[(F10, F34)], fun _ => [c!"--ssh", c!"--port=1:udp", c!"--trust=a", c!"--trust=b"], fun _ => c!"# Firewall configuration\nfirewall --enabled --port=1:udp --trust=a,b --service=ssh\n"⟩,
    ⟨[(RHEL3, F9)], fun _ => [c!"--ssh", c!"--port=1:udp", c!"--trust=a", c!"--trust=b"], fun _ => c!"# Firewall configuration\nfirewall --enabled --port=22:tcp,1:udp --trust=a,b\n"⟩,
    ⟨[(RHEL3, F34)], fun _ => [c!"--disabled", c!"--ssh"], fun _ => c!"# Firewall configuration\nfirewall --disabled\n"⟩,
    ⟨[(F20, F34)], fun _ => [c!"--remove-service=QX"], fun _ => c!"# Firewall configuration\nfirewall --enabled --remove-service=QX\n"⟩,
    ⟨[(F20, F34)], fun _ => [c!"--service=a,b", c!"--remove-service=c,d", c!"--trust=t", c!"--port=5"], fun _ => c!"# Firewall configuration\nfirewall --enabled --port=5:tcp --trust=t --service=a,b --remove-service=c,d\n"⟩,
    ⟨[(F28, F34)], fun _ => [c!"--use-system-defaults"], fun _ => c!"# Firewall configuration\nfirewall --use-system-defaults\n"⟩,
    ⟨[(RHEL3, F9)], fun _ => [c!"--telnet"], fun _ => c!"# Firewall configuration\nfirewall --enabled --port=23:tcp\n"⟩,
    ⟨[(RHEL3, F8)], fun x => [c!"--high=" ++ x], fun _ => c!"# Firewall configuration\nfirewall --enabled\n"⟩,
    ⟨[(RHEL3, F8)], fun x => [c!"--medium=" ++ x], fun _ => c!"# Firewall configuration\nfirewall --enabled\n"⟩]

/-- What `firstboot` writes. -/
def firstbootTexts : CommandTexts where
  cmd := c!"firstboot"
  texts := [
    ⟨[(RHEL3, F34)], fun _ => [], fun _ => []⟩,
    ⟨[(RHEL3, F34)], fun _ => [c!"--disable"], fun _ => c!"firstboot --disable\n"⟩,
    ⟨[(RHEL3, F34)], fun _ => [c!"--disabled"], fun _ => c!"firstboot --disable\n"⟩,
    ⟨[(RHEL3, F34)], fun _ => [c!"--enable"], fun _ => c!"# Run the Setup Agent on first boot\nfirstboot --enable\n"⟩,
    ⟨[(RHEL3, F34)], fun _ => [c!"--enabled"], fun _ => c!"# Run the Setup Agent on first boot\nfirstboot --enable\n"⟩,
    ⟨[(RHEL3, F34)], fun _ => [c!"--reconfig"], fun _ => c!"# Run the Setup Agent on first boot\nfirstboot --reconfig\n"⟩]

/-- What `graphical` writes. -/
def graphicalTexts : CommandTexts where
  cmd := c!"graphical"
  texts := [
    ⟨[(RHEL3, F34)], fun _ => [], fun _ => c!"# Use graphical install\ngraphical\n"⟩,
    ⟨[(F26, F34)], fun _ => [c!"--non-interactive"], fun _ => c!"# Use graphical install\ngraphical --non-interactive\n"⟩]

/-- What `hmc` writes. -/
def hmcTexts : CommandTexts where
  cmd := c!"hmc"
  texts := [
    ⟨[(RHEL7, RHEL7), (F28, F34)], fun _ => [], fun _ => c!"# Use installation media via SE/HMC\nhmc\n"⟩]

/-- What `install` writes. -/
def installTexts : CommandTexts where
  cmd := c!"install"
  texts := [
    ⟨[(RHEL3, F28)], fun _ => [], fun _ => c!"# Install OS instead of upgrade\ninstall\n"⟩,
    ⟨[(F11, F28)], fun x => [c!"--root-device=" ++ x], fun _ => c!"# Install OS instead of upgrade\ninstall\n"⟩]

/-- What `interactive` writes. -/
def interactiveTexts : CommandTexts where
  cmd := c!"interactive"
  texts := [
    ⟨[(RHEL3, RHEL6)], fun _ => [], fun _ => c!"# Use interactive kickstart installation method\ninteractive\n"⟩]

/-- What `iscsiname` writes. -/
def iscsinameTexts : CommandTexts where
  cmd := c!"iscsiname"
  texts := [
    ⟨[(FC6, F34)], fun _ => [c!"I"], fun _ => c!"iscsiname I\n"⟩]

/-- What `key` writes. -/
def keyTexts : CommandTexts where
  cmd := c!"key"
  texts := [
    ⟨[(RHEL5, RHEL5), (RHEL6, RHEL6)], fun _ => [c!"K"], fun _ => c!"key K\n"⟩,
    ⟨[(RHEL5, RHEL5), (RHEL6, RHEL6)], fun _ => [c!"K", c!"--skip"], fun _ => c!"key --skip\n"⟩,
    ⟨[(RHEL5, RHEL5), (RHEL6, RHEL6)], fun _ => [c!"--skip"], fun _ => c!"key --skip\n"⟩]

/-- What `keyboard` writes. -/
def keyboardTexts : CommandTexts where
  cmd := c!"keyboard"
  texts := [
    ⟨[(RHEL3, F17)], fun _ => [c!"K"], fun _ => c!"# System keyboard\nkeyboard K\n"⟩,
    ⟨[(F18, F34)], fun _ => [c!"K"], fun _ => c!"# Keyboard layouts\nkeyboard 'K'\n"⟩,
    ⟨[(F18, F34)], fun x => [c!"K", c!"--vckeymap=" ++ x], fun x => c!"# Keyboard layouts\n# old format: keyboard K\n# new format:\nkeyboard --vckeymap=" ++ x ++ c!"\n"⟩,
    ⟨[(F18, F34)], fun _ => [c!"K", c!"--xlayouts=QX"], fun _ => c!"# Keyboard layouts\n# old format: keyboard K\n# new format:\nkeyboard --xlayouts='QX'\n"⟩,
    ⟨[(F18, F34)], fun _ => [c!"K", c!"--switch=QX"], fun _ => c!"# Keyboard layouts\nkeyboard 'K'\n"⟩,
    ⟨[(F18, F34)], fun _ => [c!"K", c!"--vckeymap=v", c!"--xlayouts=a,b", c!"--switch=c,d"], fun _ => c!"# Keyboard layouts\n# old format: keyboard K\n# new format:\nkeyboard --vckeymap=v --xlayouts='a','b' --switch='c','d'\n"⟩,
    ⟨[(F18, F34)], fun _ => [c!"--xlayouts=a"], fun _ => c!"# Keyboard layouts\nkeyboard --xlayouts='a'\n"⟩,
    ⟨[(F18, F34)], fun _ => [c!"--vckeymap=v"], fun _ => c!"# Keyboard layouts\nkeyboard --vckeymap=v\n"⟩,
    ⟨[(F18, F34)], fun _ => [c!"--vckeymap=v", c!"--xlayouts=QX"], fun _ => c!"# Keyboard layouts\nkeyboard --vckeymap=v --xlayouts='QX'\n"⟩,
    ⟨[(F18, F34)], fun _ => [c!"--vckeymap=v", c!"--switch=QX"], fun _ => c!"# Keyboard layouts\nkeyboard --vckeymap=v --switch='QX'\n"⟩]

/-- What `langsupport` writes. -/
def langsupportTexts : CommandTexts where
  cmd := c!"langsupport"
  texts := [
    ⟨[(RHEL3, FC4)], fun _ => [], fun _ => c!"langsupport --default=en_US.UTF-8\n"⟩,
    ⟨[(RHEL3, FC4)], fun x => [c!"--default=" ++ x], fun x => c!"langsupport --default=" ++ x ++ c!"\n"⟩,
    ⟨[(RHEL3, FC4)], fun _ => [c!"--default=d", c!"a", c!"b"], fun _ => c!"langsupport --default=d a b\n"⟩]

/-- What `lilo` writes. -/
def liloTexts : CommandTexts where
  cmd := c!"lilo"
  texts := [
    ⟨[(RHEL3, RHEL4)], fun _ => [], fun _ => c!"# System bootloader configuration\nbootloader --linear --location=mbr --useLilo\n"⟩,
    ⟨[(RHEL3, RHEL4)], fun x => [c!"--append=" ++ x], fun x => c!"# System bootloader configuration\nbootloader --append=\"" ++ x ++ c!"\" --linear --location=mbr --useLilo\n"⟩,
    ⟨[(RHEL3, RHEL4)], fun _ => [c!"--linear"], fun _ => c!"# System bootloader configuration\nbootloader --linear --location=mbr --useLilo\n"⟩,
    ⟨[(RHEL3, RHEL4)], fun _ => [c!"--nolinear"], fun _ => c!"# System bootloader configuration\nbootloader --location=mbr --useLilo\n"⟩,
    ⟨[(RHEL3, RHEL4)], fun _ => [c!"--location=mbr"], fun _ => c!"# System bootloader configuration\nbootloader --linear --location=mbr --useLilo\n"⟩,
    ⟨[(RHEL3, RHEL4)], fun _ => [c!"--location=partition"], fun _ => c!"# System bootloader configuration\nbootloader --linear --location=partition --useLilo\n"⟩,
    ⟨[(RHEL3, RHEL4)], fun _ => [c!"--location=none"], fun _ => c!"# System bootloader configuration\nbootloader --linear --location=none --useLilo\n"⟩,
    ⟨[(RHEL3, RHEL4)], fun _ => [c!"--location=boot"], fun _ => c!"# System bootloader configuration\nbootloader --linear --location=boot --useLilo\n"⟩,
    ⟨[(RHEL3, RHEL4)], fun _ => [c!"--lba32"], fun _ => c!"# System bootloader configuration\nbootloader --linear --location=mbr --lba32 --useLilo\n"⟩,
    ⟨[(RHEL3, RHEL4)], fun x => [c!"--password=" ++ x], fun x => c!"# System bootloader configuration\nbootloader --linear --location=mbr --password=\"" ++ x ++ c!"\" --useLilo\n"⟩,
    ⟨[(RHEL3, RHEL4)], fun x => [c!"--md5pass=" ++ x], fun x => c!"# System bootloader configuration\nbootloader --linear --location=mbr --md5pass=\"" ++ x ++ c!"\" --useLilo\n"⟩,
    ⟨[(RHEL3, RHEL4)], fun _ => [c!"--upgrade"], fun _ => c!"# System bootloader configuration\nbootloader --linear --location=mbr --upgrade --useLilo\n"⟩,
    ⟨[(RHEL3, RHEL4)], fun _ => [c!"--useLilo"], fun _ => c!"# System bootloader configuration\nbootloader --linear --location=mbr --useLilo\n"⟩,
    ⟨[(RHEL3, RHEL4)], fun _ => [c!"--driveorder=QX"], fun _ => c!"# System bootloader configuration\nbootloader --linear --location=mbr --useLilo --driveorder=\"QX\"\n"⟩,
    ⟨[(RHEL3, RHEL4)], fun _ => [c!"--append=a", c!"--nolinear", c!"--location=none", c!"--lba32", c!"--password=p", c!"--md5pass=m", c!"--upgrade", c!"--driveorder=a,b"], fun _ => c!"# System bootloader configuration\nbootloader --append=\"a\" --location=none --lba32 --password=\"p\" --md5pass=\"m\" --upgrade --useLilo --driveorder=\"a,b\"\n"⟩]

/-- What `lilocheck` writes. -/
def lilocheckTexts : CommandTexts where
  cmd := c!"lilocheck"
  texts := [
    ⟨[(RHEL3, RHEL4)], fun _ => [], fun _ => c!"lilocheck\n"⟩]

/-- What `mediacheck` writes. -/
def mediacheckTexts : CommandTexts where
  cmd := c!"mediacheck"
  texts := [
    ⟨[(FC4, F34)], fun _ => [], fun _ => c!"mediacheck\n"⟩]

/-- What `mount` writes. -/
def mountTexts : CommandTexts where
  cmd := c!"mount"
  texts := [
    ⟨[(F27, F34)], fun _ => [c!"a", c!"/x"], fun _ => c!"# Mount points configuration\nmount a /x\n\n"⟩,
    ⟨[(F27, F34)], fun x => [c!"a", c!"/x", c!"--reformat=" ++ x], fun x => c!"# Mount points configuration\nmount a /x --reformat=" ++ x ++ c!"\n\n"⟩,
    ⟨[(F27, F34)], fun x => [c!"a", c!"/x", c!"--mountoptions=" ++ x], fun x => c!"# Mount points configuration\nmount a /x --mountoptions=\"" ++ x ++ c!"\"\n\n"⟩,
    ⟨[(F27, F34)], fun _ => [c!"a", c!"/x", c!"--reformat"], fun _ => c!"# Mount points configuration\nmount a /x --reformat\n\n"⟩,
    ⟨[(F27, F34)], fun x => [c!"a", c!"none", c!"--mountoptions=" ++ x], fun x => c!"# Mount points configuration\nmount a none --mountoptions=\"" ++ x ++ c!"\"\n\n"⟩,
    ⟨[(F27, F34)], fun _ => [c!"a", c!"/x", c!"--reformat=ext4"], fun _ => c!"# Mount points configuration\nmount a /x --reformat=ext4\n\n"⟩,
    ⟨[(F27, F34)], fun x => [c!"a", c!"/x", c!"--reformat=ext4", c!"--mkfsoptions=" ++ x], fun x => c!"# Mount points configuration\nmount a /x --reformat=ext4 --mkfsoptions=\"" ++ x ++ c!"\"\n\n"⟩]

/-- What `multipath` writes. -/
def multipathTexts : CommandTexts where
  cmd := c!"multipath"
  texts := [
    ⟨[(FC6, F23)], fun _ => [c!"--name=n", c!"--device=d", c!"--rule=r"], fun _ => c!"multipath --name=n --device=d --rule=\"r\"\n"⟩,
    ⟨[(FC6, F23)], fun _ => [c!"--name=n", c!"--device=d", c!"--rule=r", c!"--name=QX"], fun _ => c!"multipath --name=QX --device=d --rule=\"r\"\n"⟩,
    ⟨[(FC6, F23)], fun x => [c!"--name=n", c!"--device=d", c!"--rule=r", c!"--device=" ++ x], fun x => c!"multipath --name=n --device=" ++ x ++ c!" --rule=\"r\"\n"⟩,
    ⟨[(FC6, F23)], fun x => [c!"--name=n", c!"--device=d", c!"--rule=r", c!"--rule=" ++ x], fun x => c!"multipath --name=n --device=d --rule=\"" ++ x ++ c!"\"\n"⟩]

/-- What `nvdimm` writes. -/
def nvdimmTexts : CommandTexts where
  cmd := c!"nvdimm"
  texts := [
    ⟨[(RHEL7, RHEL7), (F28, F34)], fun _ => [c!"use", c!"--namespace=n"], fun _ => c!"# NVDIMM devices setup\nnvdimm use --namespace=n\n\n"⟩,
    ⟨[(RHEL7, RHEL7), (F28, F34)], fun _ => [c!"use", c!"--namespace=n", c!"--namespace=QX"], fun _ => c!"# NVDIMM devices setup\nnvdimm use --namespace=QX\n\n"⟩,
    ⟨[(RHEL7, RHEL7), (F28, F34)], fun _ => [c!"use", c!"--blockdevs=a,b"], fun _ => c!"# NVDIMM devices setup\nnvdimm use --blockdevs=a,b\n\n"⟩]

/-- What `raid` writes. -/
def raidTexts : CommandTexts where
  cmd := c!"raid"
  texts := [
    ⟨[(RHEL3, RHEL4), (F9, F11), (F29, F34)], fun _ => [c!"/x", c!"--device=1", c!"--level=RAID1", c!"raid.1", c!"raid.2"], fun _ => c!"raid /x --device=1 --level=RAID1 raid.1 raid.2\n"⟩,
    ⟨[(FC5, FC6)], fun _ => [c!"/x", c!"--device=1", c!"--level=RAID1", c!"raid.1", c!"raid.2"], fun _ => c!"raid /x --device=1 --level=RAID1 --bytes-per-inode=4096 raid.1 raid.2\n"⟩,
    ⟨[(RHEL3, RHEL4), (F9, F11), (F29, F34)], fun _ => [c!"/x", c!"--device=1", c!"--level=RAID1", c!"raid.1", c!"raid.2", c!"--fstype=QX"], fun _ => c!"raid /x --device=1 --fstype=\"QX\" --level=RAID1 raid.1 raid.2\n"⟩,
    ⟨[(FC5, FC6)], fun _ => [c!"/x", c!"--device=1", c!"--level=RAID1", c!"raid.1", c!"raid.2", c!"--fstype=QX"], fun _ => c!"raid /x --device=1 --fstype=\"QX\" --level=RAID1 --bytes-per-inode=4096 raid.1 raid.2\n"⟩,
    ⟨[(RHEL3, RHEL4), (F9, F11), (F29, F34)], fun _ => [c!"/x", c!"--device=1", c!"--level=RAID1", c!"raid.1", c!"raid.2", c!"--level=RAID0"], fun _ => c!"raid /x --device=1 --level=RAID0 raid.1 raid.2\n"⟩,
    ⟨[(FC5, FC6)], fun _ => [c!"/x", c!"--device=1", c!"--level=RAID1", c!"raid.1", c!"raid.2", c!"--level=RAID0"], fun _ => c!"raid /x --device=1 --level=RAID0 --bytes-per-inode=4096 raid.1 raid.2\n"⟩,
    ⟨[(F9, F11), (F29, F34)], fun _ => [c!"/x", c!"--device=1", c!"--level=RAID1", c!"raid.1", c!"raid.2", c!"--level=RAID10"], fun _ => c!"raid /x --device=1 --level=RAID10 raid.1 raid.2\n"⟩,
    ⟨[(RHEL5, RHEL5)], fun _ => [c!"/x", c!"--device=1", c!"--level=RAID1", c!"raid.1", c!"raid.2", c!"--level=RAID10"], fun _ => c!"raid /x --device=1 --level=RAID10 --bytes-per-inode=4096 raid.1 raid.2\n"⟩,
    ⟨[(RHEL3, RHEL4), (F9, F11), (F29, F34)], fun _ => [c!"/x", c!"--device=1", c!"--level=RAID1", c!"raid.1", c!"raid.2", c!"--spares=42"], fun _ => c!"raid /x --device=1 --level=RAID1 --spares=42 raid.1 raid.2\n"⟩,
    ⟨[(FC5, FC6)], fun _ => [c!"/x", c!"--device=1", c!"--level=RAID1", c!"raid.1", c!"raid.2", c!"--spares=42"], fun _ => c!"raid /x --device=1 --level=RAID1 --spares=42 --bytes-per-inode=4096 raid.1 raid.2\n"⟩,
    ⟨[(FC4, FC4), (F9, F11), (F29, F34)], fun _ => [c!"/x", c!"--device=1", c!"--level=RAID1", c!"raid.1", c!"raid.2", c!"--fsoptions=QX"], fun _ => c!"raid /x --device=1 --level=RAID1 --fsoptions=\"QX\" raid.1 raid.2\n"⟩,
    ⟨[(FC5, FC6)], fun _ => [c!"/x", c!"--device=1", c!"--level=RAID1", c!"raid.1", c!"raid.2", c!"--fsoptions=QX"], fun _ => c!"raid /x --device=1 --level=RAID1 --fsoptions=\"QX\" --bytes-per-inode=4096 raid.1 raid.2\n"⟩,
    ⟨[(F9, F11), (RHEL6, RHEL6)], fun x => [c!"/x", c!"--device=1", c!"--level=RAID1", c!"raid.1", c!"raid.2", c!"--bytes-per-inode=" ++ x], fun _ => c!"raid /x --device=1 --level=RAID1 raid.1 raid.2\n"⟩,
    ⟨[(F9, F11), (F29, F34)], fun _ => [c!"/x", c!"--device=1", c!"--level=RAID1", c!"raid.1", c!"raid.2", c!"--fsprofile=QX"], fun _ => c!"raid /x --device=1 --level=RAID1 --fsprofile=\"QX\" raid.1 raid.2\n"⟩,
    ⟨[(F9, F11), (F29, F34)], fun _ => [c!"/x", c!"--device=1", c!"--level=RAID1", c!"raid.1", c!"raid.2", c!"--encrypted"], fun _ => c!"raid /x --device=1 --level=RAID1 --encrypted raid.1 raid.2\n"⟩,
    ⟨[(RHEL5, RHEL5)], fun _ => [c!"/x", c!"--device=1", c!"--level=RAID1", c!"raid.1", c!"raid.2", c!"--encrypted"], fun _ => c!"raid /x --device=1 --level=RAID1 --bytes-per-inode=4096 --encrypted raid.1 raid.2\n"⟩,
    ⟨[(F9, F11), (RHEL6, RHEL6)], fun _ => [c!"/x", c!"--device=1", c!"--level=RAID1", c!"raid.1", c!"raid.2", c!"--bytes-per-inode=42"], fun _ => c!"raid /x --device=1 --level=RAID1 raid.1 raid.2\n"⟩,
    ⟨[(FC5, FC6)], fun _ => [c!"/x", c!"--device=1", c!"--level=RAID1", c!"raid.1", c!"raid.2", c!"--bytes-per-inode=42"], fun _ => c!"raid /x --device=1 --level=RAID1 --bytes-per-inode=42 raid.1 raid.2\n"⟩,
    ⟨[(F9, F11), (F29, F34)], fun _ => [c!"/x", c!"--device=1", c!"--level=RAID1", c!"raid.1", c!"raid.2", c!"--encrypted", c!"--passphrase=QX"], fun _ => c!"raid /x --device=1 --level=RAID1 --encrypted --passphrase=\"QX\" raid.1 raid.2\n"⟩,
    ⟨[(RHEL5, RHEL5)], fun _ => [c!"/x", c!"--device=1", c!"--level=RAID1", c!"raid.1", c!"raid.2", c!"--encrypted", c!"--passphrase=QX"], fun _ => c!"raid /x --device=1 --level=RAID1 --bytes-per-inode=4096 --encrypted --passphrase=\"QX\" raid.1 raid.2\n"⟩,
    ⟨[(F9, F11), (F29, F34)], fun _ => [c!"/x", c!"--device=1", c!"--level=RAID1", c!"raid.1", c!"raid.2", c!"raid.3", c!"--spares=1", c!"--fstype=ext4", c!"--fsoptions=o", c!"--fsprofile=f", c!"--encrypted"], fun _ => c!"raid /x --device=1 --fstype=\"ext4\" --level=RAID1 --spares=1 --fsoptions=\"o\" --fsprofile=\"f\" --encrypted raid.1 raid.2 raid.3\n"⟩,
    ⟨[(RHEL3, RHEL4), (F9, F11), (F29, F34)], fun _ => [c!"/x", c!"--device=1", c!"--noformat"], fun _ => c!"raid /x --device=1 --noformat --useexisting\n"⟩,
    ⟨[(FC5, FC6)], fun _ => [c!"/x", c!"--device=1", c!"--noformat"], fun _ => c!"raid /x --device=1 --noformat --useexisting --bytes-per-inode=4096\n"⟩,
    ⟨[(RHEL3, RHEL4), (F9, F11), (F29, F34)], fun _ => [c!"/x", c!"--device=1", c!"--noformat", c!"--fstype=ext4"], fun _ => c!"raid /x --device=1 --fstype=\"ext4\" --noformat --useexisting\n"⟩,
    ⟨[(FC5, FC6)], fun _ => [c!"/x", c!"--device=1", c!"--noformat", c!"--fstype=ext4"], fun _ => c!"raid /x --device=1 --fstype=\"ext4\" --noformat --useexisting --bytes-per-inode=4096\n"⟩,
    ⟨[(RHEL3, RHEL4), (F9, F11), (F29, F34)], fun _ => [c!"/x", c!"--device=1", c!"--useexisting"], fun _ => c!"raid /x --device=1 --useexisting\n"⟩,
    ⟨[(FC5, FC6)], fun _ => [c!"/x", c!"--device=1", c!"--useexisting"], fun _ => c!"raid /x --device=1 --useexisting --bytes-per-inode=4096\n"⟩,
    ⟨[(RHEL3, RHEL4), (F9, F11), (F29, F34)], fun _ => [c!"/x", c!"--device=1", c!"--useexisting", c!"--fstype=ext4"], fun _ => c!"raid /x --device=1 --fstype=\"ext4\" --useexisting\n"⟩,
    ⟨[(FC5, FC6)], fun _ => [c!"/x", c!"--device=1", c!"--useexisting", c!"--fstype=ext4"], fun _ => c!"raid /x --device=1 --fstype=\"ext4\" --useexisting --bytes-per-inode=4096\n"⟩,
    ⟨[(RHEL3, RHEL4), (F9, F11), (F29, F34)], fun _ => [c!"/x", c!"--device=1", c!"--level=RAID1", c!"raid.1", c!"raid.2", c!"raid.3"], fun _ => c!"raid /x --device=1 --level=RAID1 raid.1 raid.2 raid.3\n"⟩,
    ⟨[(FC5, FC6)], fun _ => [c!"/x", c!"--device=1", c!"--level=RAID1", c!"raid.1", c!"raid.2", c!"raid.3"], fun _ => c!"raid /x --device=1 --level=RAID1 --bytes-per-inode=4096 raid.1 raid.2 raid.3\n"⟩,
    ⟨[(RHEL3, RHEL4), (F9, F11), (F29, F34)], fun _ => [c!"/x", c!"--device=1", c!"--level=RAID1", c!"raid.1", c!"raid.2", c!"raid.3", c!"--device=md7"], fun _ => c!"raid /x --device=7 --level=RAID1 raid.1 raid.2 raid.3\n"⟩,
    ⟨[(FC5, FC6)], fun _ => [c!"/x", c!"--device=1", c!"--level=RAID1", c!"raid.1", c!"raid.2", c!"raid.3", c!"--device=md7"], fun _ => c!"raid /x --device=7 --level=RAID1 --bytes-per-inode=4096 raid.1 raid.2 raid.3\n"⟩,
    ⟨[(RHEL3, RHEL4), (F9, F11), (F29, F34)], fun _ => [c!"/x", c!"--device=1", c!"--level=RAID1", c!"raid.1", c!"raid.2", c!"raid.3", c!"--spares=1"], fun _ => c!"raid /x --device=1 --level=RAID1 --spares=1 raid.1 raid.2 raid.3\n"⟩,
    ⟨[(FC5, FC6)], fun _ => [c!"/x", c!"--device=1", c!"--level=RAID1", c!"raid.1", c!"raid.2", c!"raid.3", c!"--spares=1"], fun _ => c!"raid /x --device=1 --level=RAID1 --spares=1 --bytes-per-inode=4096 raid.1 raid.2 raid.3\n"⟩,
    ⟨[(F12, F12), (F29, F34)], fun _ => [c!"/x", c!"--device=1", c!"--level=RAID1", c!"raid.1", c!"raid.2", c!"--backuppassphrase"], fun _ => c!"raid /x --device=1 --level=RAID1 raid.1 raid.2\n"⟩,
    ⟨[(F12, F12), (F29, F34)], fun _ => [c!"/x", c!"--device=1", c!"--level=RAID1", c!"raid.1", c!"raid.2", c!"--encrypted", c!"--escrowcert=QX"], fun _ => c!"raid /x --device=1 --level=RAID1 --encrypted --escrowcert=\"QX\" raid.1 raid.2\n"⟩,
    ⟨[(F12, F12), (F29, F34)], fun _ => [c!"/x", c!"--device=1", c!"--level=RAID1", c!"raid.1", c!"raid.2", c!"--encrypted", c!"--escrowcert=c", c!"--backuppassphrase"], fun _ => c!"raid /x --device=1 --level=RAID1 --encrypted --escrowcert=\"c\" --backuppassphrase raid.1 raid.2\n"⟩,
    ⟨[(F13, F13), (F29, F34)], fun _ => [c!"/x", c!"--device=1", c!"--level=RAID1", c!"raid.1", c!"raid.2", c!"--level=RAID4"], fun _ => c!"raid /x --device=1 --level=RAID4 raid.1 raid.2\n"⟩,
    ⟨[(F13, F13), (F29, F34)], fun _ => [c!"/x", c!"--device=1", c!"--level=RAID1", c!"raid.1", c!"raid.2", c!"--level=4"], fun _ => c!"raid /x --device=1 --level=RAID4 raid.1 raid.2\n"⟩,
    ⟨[(F15, F17), (F29, F34)], fun _ => [c!"/x", c!"--device=1", c!"--level=RAID1", c!"raid.1", c!"raid.2", c!"--label=QX"], fun _ => c!"raid /x --device=1 --level=RAID1 --label=QX raid.1 raid.2\n"⟩,
    ⟨[(F15, F17), (F29, F34)], fun _ => [c!"/x", c!"--device=1", c!"--noformat", c!"--label=QX"], fun _ => c!"raid /x --device=1 --noformat --useexisting --label=QX\n"⟩,
    ⟨[(F15, F17), (F29, F34)], fun _ => [c!"/x", c!"--device=1", c!"--useexisting", c!"--label=QX"], fun _ => c!"raid /x --device=1 --useexisting --label=QX\n"⟩,
    ⟨[(RHEL6, RHEL6), (F29, F34)], fun _ => [c!"/x", c!"--device=1", c!"--level=RAID1", c!"raid.1", c!"raid.2", c!"--encrypted", c!"--cipher=QX"], fun _ => c!"raid /x --device=1 --level=RAID1 --encrypted --cipher=\"QX\" raid.1 raid.2\n"⟩,
    ⟨[(F19, F19), (F29, F34)], fun _ => [c!"/x", c!"--device=1", c!"--level=RAID1", c!"raid.1", c!"raid.2", c!"--device=QX"], fun _ => c!"raid /x --device=QX --level=RAID1 raid.1 raid.2\n"⟩,
    ⟨[(F19, F19), (F29, F34)], fun _ => [c!"/x", c!"--device=1", c!"--level=RAID1", c!"raid.1", c!"raid.2", c!"raid.3", c!"--device=data"], fun _ => c!"raid /x --device=data --level=RAID1 raid.1 raid.2 raid.3\n"⟩,
    ⟨[(RHEL7, RHEL7), (F29, F34)], fun _ => [c!"/x", c!"--device=1", c!"--level=RAID1", c!"raid.1", c!"raid.2", c!"--mkfsoptions=QX"], fun _ => c!"raid /x --device=1 --level=RAID1 --mkfsoptions=\"QX\" raid.1 raid.2\n"⟩,
    ⟨[(RHEL7, RHEL7), (F29, F34)], fun _ => [c!"/x", c!"--device=1", c!"--level=RAID1", c!"raid.1", c!"raid.2", c!"--chunksize=42"], fun _ => c!"raid /x --device=1 --level=RAID1 --chunksize=42 raid.1 raid.2\n"⟩,
    ⟨[(RHEL8, F34)], fun _ => [c!"/x", c!"--device=1", c!"--level=RAID1", c!"raid.1", c!"raid.2", c!"--encrypted", c!"--luks-version=QX"], fun _ => c!"raid /x --device=1 --level=RAID1 --encrypted --luks-version=QX raid.1 raid.2\n"⟩,
    ⟨[(RHEL8, F34)], fun _ => [c!"/x", c!"--device=1", c!"--level=RAID1", c!"raid.1", c!"raid.2", c!"--encrypted", c!"--pbkdf=QX"], fun _ => c!"raid /x --device=1 --level=RAID1 --encrypted --pbkdf=QX raid.1 raid.2\n"⟩,
    ⟨[(RHEL8, F34)], fun _ => [c!"/x", c!"--device=1", c!"--level=RAID1", c!"raid.1", c!"raid.2", c!"--encrypted", c!"--pbkdf-memory=42"], fun _ => c!"raid /x --device=1 --level=RAID1 --encrypted --pbkdf-memory=42 raid.1 raid.2\n"⟩,
    ⟨[(RHEL8, F34)], fun _ => [c!"/x", c!"--device=1", c!"--level=RAID1", c!"raid.1", c!"raid.2", c!"--encrypted", c!"--pbkdf-time=42"], fun _ => c!"raid /x --device=1 --level=RAID1 --encrypted --pbkdf-time=42 raid.1 raid.2\n"⟩,
    ⟨[(RHEL8, F34)], fun _ => [c!"/x", c!"--device=1", c!"--level=RAID1", c!"raid.1", c!"raid.2", c!"--encrypted", c!"--pbkdf-iterations=42"], fun _ => c!"raid /x --device=1 --level=RAID1 --encrypted --pbkdf-iterations=42 raid.1 raid.2\n"⟩]

/-- What `rhsm` writes. -/
def rhsmTexts : CommandTexts where
  cmd := c!"rhsm"
  texts := [
    ⟨[(RHEL8, RHEL8)], fun _ => [c!"--organization=o", c!"--activation-key=k"], fun _ => c!"# Red Hat Subscription Manager\nrhsm --organization=\"o\" --activation-key=\"k\"\n"⟩,
    ⟨[(RHEL8, RHEL8)], fun x => [c!"--organization=o", c!"--activation-key=k", c!"--organization=" ++ x], fun x => c!"# Red Hat Subscription Manager\nrhsm --organization=\"" ++ x ++ c!"\" --activation-key=\"k\"\n"⟩,
    ⟨[(RHEL8, RHEL8)], fun x => [c!"--organization=o", c!"--activation-key=k", c!"--activation-key=" ++ x], fun x => c!"# Red Hat Subscription Manager\nrhsm --organization=\"o\" --activation-key=\"k\" --activation-key=\"" ++ x ++ c!"\"\n"⟩,
    ⟨[(RHEL8, RHEL8)], fun _ => [c!"--organization=o", c!"--activation-key=k", c!"--connect-to-insights"], fun _ => c!"# Red Hat Subscription Manager\nrhsm --organization=\"o\" --activation-key=\"k\" --connect-to-insights\n"⟩,
    ⟨[(RHEL8, RHEL8)], fun x => [c!"--organization=o", c!"--activation-key=k", c!"--proxy=" ++ x], fun x => c!"# Red Hat Subscription Manager\nrhsm --organization=\"o\" --activation-key=\"k\" --proxy=\"" ++ x ++ c!"\"\n"⟩,
    ⟨[(RHEL8, RHEL8)], fun x => [c!"--organization=o", c!"--activation-key=k", c!"--server-hostname=" ++ x], fun x => c!"# Red Hat Subscription Manager\nrhsm --organization=\"o\" --activation-key=\"k\" --server-hostname=\"" ++ x ++ c!"\"\n"⟩,
    ⟨[(RHEL8, RHEL8)], fun x => [c!"--organization=o", c!"--activation-key=k", c!"--rhsm-baseurl=" ++ x], fun x => c!"# Red Hat Subscription Manager\nrhsm --organization=\"o\" --activation-key=\"k\" --rhsm-baseurl=\"" ++ x ++ c!"\"\n"⟩,
    ⟨[(RHEL8, RHEL8)], fun _ => [c!"--organization=o", c!"--activation-key=k", c!"--activation-key=l", c!"--server-hostname=h", c!"--rhsm-baseurl=b", c!"--proxy=p", c!"--connect-to-insights"], fun _ => c!"# Red Hat Subscription Manager\nrhsm --organization=\"o\" --activation-key=\"k\" --activation-key=\"l\" --connect-to-insights --proxy=\"p\" --server-hostname=\"h\" --rhsm-baseurl=\"b\"\n"⟩]

/-- What `rootpw` writes. -/
def rootpwTexts : CommandTexts where
  cmd := c!"rootpw"
  texts := [
    ⟨[(F8, F34)], fun _ => [c!"P"], fun _ => c!"# Root password\nrootpw --plaintext P\n"⟩,
    ⟨[(RHEL3, F7)], fun _ => [c!"P"], fun _ => c!"# Root password\nrootpw P\n"⟩,
    ⟨[(RHEL3, F34)], fun _ => [c!"P", c!"--iscrypted"], fun _ => c!"# Root password\nrootpw --iscrypted P\n"⟩,
    ⟨[(F8, F34)], fun _ => [c!"P", c!"--lock"], fun _ => c!"# Root password\nrootpw --lock --plaintext P\n"⟩,
    ⟨[(F8, F34)], fun _ => [c!"P", c!"--plaintext"], fun _ => c!"# Root password\nrootpw --plaintext P\n"⟩,
    ⟨[(F8, F34)], fun _ => [c!"a#b"], fun _ => c!"# Root password\nrootpw --plaintext \"a#b\"\n"⟩,
    ⟨[(RHEL3, F7)], fun _ => [c!"a#b"], fun _ => c!"# Root password\nrootpw \"a#b\"\n"⟩,
    ⟨[(RHEL3, F34)], fun _ => [c!"--iscrypted", c!"a#b"], fun _ => c!"# Root password\nrootpw --iscrypted \"a#b\"\n"⟩,
    ⟨[(F8, F34)], fun _ => [c!"--lock", c!"a"], fun _ => c!"# Root password\nrootpw --lock --plaintext a\n"⟩,
    ⟨[(F18, F34)], fun _ => [c!"--lock"], fun _ => c!"#Root password\nrootpw --lock\n"⟩,
    ⟨[(F18, F34)], fun _ => [c!"--lock", c!"--iscrypted"], fun _ => c!"#Root password\nrootpw --lock\n"⟩,
    ⟨[(F18, F34)], fun _ => [c!"--lock", c!"--plaintext"], fun _ => c!"#Root password\nrootpw --lock\n"⟩]

/-- What `skipx` writes. -/
def skipxTexts : CommandTexts where
  cmd := c!"skipx"
  texts := [
    ⟨[(RHEL3, F34)], fun _ => [], fun _ => c!"# Do not configure the X Window System\nskipx\n"⟩]

/-- What `snapshot` writes. -/
def snapshotTexts : CommandTexts where
  cmd := c!"snapshot"
  texts := [
    ⟨[(RHEL7, RHEL7), (F26, F34)], fun _ => [c!"a/b", c!"--name=s", c!"--when=pre-install"], fun _ => c!"snapshot a/b --name=s --when=pre-install\n"⟩,
    ⟨[(RHEL7, RHEL7), (F26, F34)], fun _ => [c!"a/b", c!"--name=s", c!"--when=pre-install", c!"--name=QX"], fun _ => c!"snapshot a/b --name=QX --when=pre-install\n"⟩,
    ⟨[(RHEL7, RHEL7), (F26, F34)], fun _ => [c!"a/b", c!"--name=s", c!"--when=pre-install", c!"--when=post-install"], fun _ => c!"snapshot a/b --name=s --when=post-install\n"⟩,
    ⟨[(RHEL7, RHEL7), (F26, F34)], fun _ => [c!"a/b", c!"--name=s", c!"--when=pre-install", c!"--when=pre-install"], fun _ => c!"snapshot a/b --name=s --when=pre-install\n"⟩,
    ⟨[(RHEL7, RHEL7), (F26, F34)], fun _ => [c!"a/b", c!"--name=s", c!"--when=post-install"], fun _ => c!"snapshot a/b --name=s --when=post-install\n"⟩]

/-- What `syspurpose` writes. -/
def syspurposeTexts : CommandTexts where
  cmd := c!"syspurpose"
  texts := [
    ⟨[(RHEL8, RHEL8)], fun _ => [], fun _ => []⟩,
    ⟨[(RHEL8, RHEL8)], fun x => [c!"--role=" ++ x], fun x => c!"# Intended system purpose\nsyspurpose --role=\"" ++ x ++ c!"\"\n"⟩,
    ⟨[(RHEL8, RHEL8)], fun x => [c!"--sla=" ++ x], fun x => c!"# Intended system purpose\nsyspurpose --sla=\"" ++ x ++ c!"\"\n"⟩,
    ⟨[(RHEL8, RHEL8)], fun x => [c!"--usage=" ++ x], fun x => c!"# Intended system purpose\nsyspurpose --usage=\"" ++ x ++ c!"\"\n"⟩,
    ⟨[(RHEL8, RHEL8)], fun x => [c!"--addon=" ++ x], fun x => c!"# Intended system purpose\nsyspurpose --addon=\"" ++ x ++ c!"\"\n"⟩,
    ⟨[(RHEL8, RHEL8)], fun _ => [c!"--role=r", c!"--sla=s", c!"--usage=u", c!"--addon=a", c!"--addon=b"], fun _ => c!"# Intended system purpose\nsyspurpose --role=\"r\" --sla=\"s\" --usage=\"u\" --addon=\"a\" --addon=\"b\"\n"⟩,
    ⟨[(RHEL8, RHEL8)], fun _ => [c!"--role=a"], fun _ => c!"# Intended system purpose\nsyspurpose --role=\"a\"\n"⟩,
    ⟨[(RHEL8, RHEL8)], fun x => [c!"--role=a", c!"--sla=" ++ x], fun x => c!"# Intended system purpose\nsyspurpose --role=\"a\" --sla=\"" ++ x ++ c!"\"\n"⟩,
    ⟨[(RHEL8, RHEL8)], fun x => [c!"--role=a", c!"--usage=" ++ x], fun x => c!"# Intended system purpose\nsyspurpose --role=\"a\" --usage=\"" ++ x ++ c!"\"\n"⟩,
    ⟨[(RHEL8, RHEL8)], fun x => [c!"--role=a", c!"--addon=" ++ x], fun x => c!"# Intended system purpose\nsyspurpose --role=\"a\" --addon=\"" ++ x ++ c!"\"\n"⟩]

/-- What `text` writes. -/
def textTexts : CommandTexts where
  cmd := c!"text"
  texts := [
    ⟨[(RHEL3, F34)], fun _ => [], fun _ => c!"# Use text mode install\ntext\n"⟩,
    ⟨[(F26, F34)], fun _ => [c!"--non-interactive"], fun _ => c!"# Use text mode install\ntext --non-interactive\n"⟩]

/-- What `unsupported_hardware` writes. -/
def unsupportedHardwareTexts : CommandTexts where
  cmd := c!"unsupported_hardware"
  texts := [
    ⟨[(RHEL6, RHEL6), (RHEL7, RHEL7)], fun _ => [], fun _ => c!"unsupported_hardware\n"⟩]

/-- What `updates` writes. -/
def updatesTexts : CommandTexts where
  cmd := c!"updates"
  texts := [
    ⟨[(F7, F33)], fun _ => [], fun _ => c!"updates\n"⟩,
    ⟨[(F7, F34)], fun _ => [c!"U"], fun _ => c!"updates U\n"⟩]

/-- What `upgrade` writes. -/
def upgradeTexts : CommandTexts where
  cmd := c!"upgrade"
  texts := [
    ⟨[(RHEL3, F19)], fun _ => [], fun _ => c!"# Upgrade existing installation\nupgrade\n"⟩,
    ⟨[(F11, F19)], fun x => [c!"--root-device=" ++ x], fun x => c!"# Upgrade existing installation\nupgrade --root-device=" ++ x ++ c!"\n"⟩]

/-- What `volgroup` writes. -/
def volgroupTexts : CommandTexts where
  cmd := c!"volgroup"
  texts := [
    ⟨[(RHEL3, F20)], fun _ => [c!"g", c!"pv.1"], fun _ => c!"volgroup g --pesize=32768 pv.1\n"⟩,
    ⟨[(F21, F34)], fun _ => [c!"g", c!"pv.1"], fun _ => c!"volgroup g pv.1\n"⟩,
    ⟨[(RHEL3, F34)], fun _ => [c!"g", c!"pv.1", c!"--pesize=42"], fun _ => c!"volgroup g --pesize=42 pv.1\n"⟩,
    ⟨[(RHEL3, F13), (F14, F15)], fun _ => [c!"g", c!"pv.1", c!"--reserved-space=42"], fun _ => c!"volgroup g --pesize=32768 --reserved-space=42\n"⟩,
    ⟨[(RHEL6, RHEL6), (F16, F20)], fun _ => [c!"g", c!"pv.1", c!"--reserved-space=42"], fun _ => c!"volgroup g --pesize=32768 --reserved-space=42 pv.1\n"⟩,
    ⟨[(F21, F34)], fun _ => [c!"g", c!"pv.1", c!"--reserved-space=42"], fun _ => c!"volgroup g --reserved-space=42 pv.1\n"⟩,
    ⟨[(RHEL3, F13), (F14, F15)], fun _ => [c!"g", c!"pv.1", c!"--reserved-percent=42"], fun _ => c!"volgroup g --pesize=32768 --reserved-percent=42\n"⟩,
    ⟨[(RHEL6, RHEL6), (F16, F20)], fun _ => [c!"g", c!"pv.1", c!"--reserved-percent=42"], fun _ => c!"volgroup g --pesize=32768 --reserved-percent=42 pv.1\n"⟩,
    ⟨[(F21, F34)], fun _ => [c!"g", c!"pv.1", c!"--reserved-percent=42"], fun _ => c!"volgroup g --reserved-percent=42 pv.1\n"⟩,
    ⟨[(RHEL3, F34)], fun _ => [c!"g", c!"pv.1", c!"pv.2", c!"--pesize=8"], fun _ => c!"volgroup g --pesize=8 pv.1 pv.2\n"⟩,
    ⟨[(RHEL3, F20)], fun _ => [c!"g", c!"--noformat"], fun _ => c!"volgroup g --noformat --pesize=32768 --useexisting\n"⟩,
    ⟨[(F21, F34)], fun _ => [c!"g", c!"--noformat"], fun _ => c!"volgroup g --noformat --useexisting\n"⟩,
    ⟨[(RHEL3, F20)], fun _ => [c!"g", c!"--useexisting"], fun _ => c!"volgroup g --pesize=32768 --useexisting\n"⟩,
    ⟨[(F21, F34)], fun _ => [c!"g", c!"--useexisting"], fun _ => c!"volgroup g --useexisting\n"⟩,
    ⟨[(RHEL3, F20)], fun _ => [c!"g", c!"--useexisting", c!"--noformat"], fun _ => c!"volgroup g --noformat --pesize=32768 --useexisting\n"⟩,
    ⟨[(F21, F34)], fun _ => [c!"g", c!"--useexisting", c!"--noformat"], fun _ => c!"volgroup g --noformat --useexisting\n"⟩]

/-- What `zerombr` writes. -/
def zerombrTexts : CommandTexts where
  cmd := c!"zerombr"
  texts := [
    ⟨[(RHEL3, F34)], fun _ => [], fun _ => c!"# Clear the Master Boot Record\nzerombr\n"⟩,
    ⟨[(RHEL3, F8)], fun _ => [c!"x"], fun _ => c!"# Clear the Master Boot Record\nzerombr\n"⟩,
    ⟨[(RHEL3, F8)], fun _ => [c!"yes"], fun _ => c!"# Clear the Master Boot Record\nzerombr\n"⟩]

/-- The tables of the commands. -/
def commandTexts : List CommandTexts := [btrfsTexts,
  cdromTexts,
  cmdlineTexts,
  dmraidTexts,
  firewallTexts,
  firstbootTexts,
  graphicalTexts,
  hmcTexts,
  installTexts,
  interactiveTexts,
  iscsinameTexts,
  keyTexts,
  keyboardTexts,
  langsupportTexts,
  liloTexts,
  lilocheckTexts,
  mediacheckTexts,
  mountTexts,
  multipathTexts,
  nvdimmTexts,
  raidTexts,
  rhsmTexts,
  rootpwTexts,
  skipxTexts,
  snapshotTexts,
  syspurposeTexts,
  textTexts,
  unsupportedHardwareTexts,
  updatesTexts,
  upgradeTexts,
  volgroupTexts,
  zerombrTexts]

end Ks
