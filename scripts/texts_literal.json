{
 "raid": [
  "/x --device=1 --level=RAID1 raid.1 raid.2 --fstype=QX",
  "/x --device=1 --level=RAID1 raid.1 raid.2 --fsoptions=QX",
  "/x --device=1 --level=RAID1 raid.1 raid.2 --fsprofile=QX",
  "/x --device=1 --level=RAID1 raid.1 raid.2 --encrypted --passphrase=QX",
  "/x --device=1 --level=RAID1 raid.1 raid.2 --encrypted --escrowcert=QX",
  "/x --device=1 --level=RAID1 raid.1 raid.2 --label=QX",
  "/x --device=1 --noformat --label=QX",
  "/x --device=1 --useexisting --label=QX",
  "/x --device=1 --level=RAID1 raid.1 raid.2 --encrypted --cipher=QX",
  "/x --device=1 --level=RAID1 raid.1 raid.2 --device=QX",
  "/x --device=1 --level=RAID1 raid.1 raid.2 --mkfsoptions=QX",
  "/x --device=1 --level=RAID1 raid.1 raid.2 --encrypted --luks-version=QX",
  "/x --device=1 --level=RAID1 raid.1 raid.2 --encrypted --pbkdf=QX"
 ],
 "snapshot": [
  "a/b --name=s --when=pre-install --name=QX"
 ],
 "multipath": [
  "--name=n --device=d --rule=r --name=QX"
 ],
 "dmraid": [
  "--name=n --dev=d --name=QX"
 ],
 "nvdimm": [
  "use --namespace=n --namespace=QX"
 ],
 "firewall": [
  "--trust=QX"
 ]
}