{"raid": ["/x --device=1 --level=RAID1 raid.1 raid.2 --encrypted --passphrase=QX", "/x --device=1 --level=RAID1 raid.1 raid.2 --encrypted --escrowcert=QX",
  "/x --device=1 --level=RAID1 raid.1 raid.2 --encrypted --escrowcert=c --backuppassphrase", "/x --device=1 --level=RAID1 raid.1 raid.2 --encrypted --cipher=QX",
  "/x --device=1 --level=RAID1 raid.1 raid.2 --encrypted --luks-version=QX", "/x --device=1 --level=RAID1 raid.1 raid.2 --encrypted --pbkdf=QX",
  "/x --device=1 --level=RAID1 raid.1 raid.2 --encrypted --pbkdf-memory=42", "/x --device=1 --level=RAID1 raid.1 raid.2 --encrypted --pbkdf-time=42", "/x --device=1 --level=RAID1 raid.1 raid.2 --encrypted --pbkdf-iterations=42",
  "/x --device=1 --level=RAID1 raid.1 raid.2 raid.3 --spares=1 --fstype=ext4 --fsoptions=o --fsprofile=f --encrypted"],
 "firewall": ["--port=ssh:tcp,telnet:tcp,smtp:tcp,http:tcp,ftp:tcp,imap:udp,99", "--ssh --port=1:udp --trust=a --trust=b", "--disabled --ssh", "--service=a,b --remove-service=c,d --trust=t --port=5"],
 "nvdimm": ["reconfigure --namespace=n --mode=sector --sectorsize=512", "reconfigure --namespace=n --mode=sector"],
 "rootpw": ["a#b", "--iscrypted a#b", "--lock a"],
 "mount": ["a /x --reformat", "a none --mountoptions=QX"],
 "keyboard": ["K --vckeymap=v --xlayouts=a,b --switch=c,d", "--xlayouts=a"],
 "rhsm": ["--organization=o --activation-key=k --activation-key=l --server-hostname=h --rhsm-baseurl=b --proxy=p --connect-to-insights"],
 "syspurpose": ["--role=r --sla=s --usage=u --addon=a --addon=b"],
 "btrfs": ["/x --label=l --data=raid1 --metadata=raid0 a b", "none a"],
 "volgroup": ["g pv.1 pv.2 --pesize=8"],
 "dmraid": ["--name=n --dev=a --dev=b", "--name=/dev/mapper/n --dev=d"],
 "snapshot": ["a/b --name=s --when=post-install"],
 "langsupport": ["--default=d a b"],
 "lilo": ["--append=a --nolinear --location=none --lba32 --password=p --md5pass=m --upgrade --driveorder=a,b"],
 "multipath": []}
