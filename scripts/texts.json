[
{
"cmd": "cdrom",
"cls": "FC3_Cdrom.cls",
"vs": [
8000,
9000,
10000,
11000,
12000,
13000,
14000,
15000,
16000,
17000,
18000,
19000,
20000,
21000,
22000,
23000,
24000,
25000,
26000,
27000,
30000,
31000,
32000,
33000,
34000,
5000,
6000,
7000,
1000,
2000,
3000,
4000,
900,
1100,
4100,
11100,
19100,
26100
],
"line": "",
"text": "# Use CDROM installation media\\ncdrom\\n"
},
{
"cmd": "cdrom",
"cls": "FC3_Cdrom.cls",
"vs": [
8000,
9000,
10000,
11000,
12000,
13000,
14000,
15000,
16000,
17000,
18000,
19000,
20000,
21000,
22000,
23000,
24000,
25000,
26000,
27000,
30000,
31000,
32000,
33000,
34000,
5000,
6000,
7000,
1000,
2000,
3000,
4000,
900,
1100,
4100,
11100,
19100,
26100
],
"line": "x",
"text": null
},
{
"cmd": "cdrom",
"cls": "FC3_Cdrom.cls",
"vs": [
8000,
9000,
10000,
11000,
12000,
13000,
14000,
15000,
16000,
17000,
18000,
19000,
20000,
21000,
22000,
23000,
24000,
25000,
26000,
27000,
30000,
31000,
32000,
33000,
34000,
5000,
6000,
7000,
1000,
2000,
3000,
4000,
900,
1100,
4100,
11100,
19100,
26100
],
"line": "--x",
"text": null
},
{
"cmd": "cmdline",
"cls": "FC3_DisplayMode.cls",
"vs": [
8000,
9000,
10000,
11000,
12000,
13000,
14000,
15000,
16000,
17000,
18000,
19000,
20000,
21000,
22000,
23000,
5000,
6000,
7000,
1000,
2000,
3000,
4000,
900,
1100,
4100,
11100,
19100
],
"line": "",
"text": "cmdline\\n"
},
{
"cmd": "cmdline",
"cls": "FC3_DisplayMode.cls",
"vs": [
8000,
9000,
10000,
11000,
12000,
13000,
14000,
15000,
16000,
17000,
18000,
19000,
20000,
21000,
22000,
23000,
5000,
6000,
7000,
1000,
2000,
3000,
4000,
900,
1100,
4100,
11100,
19100
],
"line": "--non-interactive",
"text": null
},
{
"cmd": "dmraid",
"cls": "FC6_DmRaid.cls FC6_DmRaidData.cls",
"vs": [
8000,
9000,
10000,
11000,
12000,
13000,
14000,
15000,
16000,
17000,
18000,
19000,
20000,
21000,
5000,
6000,
7000,
4000,
4100,
11100,
19100
],
"line": "--name=n --dev=d",
"text": "dmraid --name=n --dev=\\\"d\\\"\\n"
},
{
"cmd": "dmraid",
"cls": "FC6_DmRaid.cls FC6_DmRaidData.cls",
"vs": [
8000,
9000,
10000,
11000,
12000,
13000,
14000,
15000,
16000,
17000,
18000,
19000,
20000,
21000,
5000,
6000,
7000,
4000,
4100,
11100,
19100
],
"line": "--name=n --dev=d --name=QX",
"text": "dmraid --name=QX --dev=\\\"d\\\"\\n"
},
{
"cmd": "dmraid",
"cls": "FC6_DmRaid.cls FC6_DmRaidData.cls",
"vs": [
8000,
9000,
10000,
11000,
12000,
13000,
14000,
15000,
16000,
17000,
18000,
19000,
20000,
21000,
5000,
6000,
7000,
4000,
4100,
11100,
19100
],
"line": "--name=n --dev=d --dev=QX",
"text": "dmraid --name=n --dev=\\\"d\\\" --dev=\\\"QX\\\"\\n"
},
{
"cmd": "dmraid",
"cls": "FC6_DmRaid.cls FC6_DmRaidData.cls",
"vs": [
8000,
9000,
10000,
11000,
12000,
13000,
14000,
15000,
16000,
17000,
18000,
19000,
20000,
21000,
5000,
6000,
7000,
4000,
4100,
11100,
19100
],
"line": "--name=n --dev=a --dev=b",
"text": "dmraid --name=n --dev=\\\"a\\\" --dev=\\\"b\\\"\\n"
},
{
"cmd": "dmraid",
"cls": "FC6_DmRaid.cls FC6_DmRaidData.cls",
"vs": [
8000,
9000,
10000,
11000,
12000,
13000,
14000,
15000,
16000,
17000,
18000,
19000,
20000,
21000,
5000,
6000,
7000,
4000,
4100,
11100,
19100
],
"line": "--name=/dev/mapper/n --dev=d",
"text": "dmraid --name=n --dev=\\\"d\\\"\\n"
},
{
"cmd": "firewall",
"cls": "F10_Firewall.cls",
"vs": [
8000,
9000,
10000,
11000,
11100
],
"line": "",
"text": "# Firewall configuration\\nfirewall --enabled\\n"
},
{
"cmd": "firewall",
"cls": "F10_Firewall.cls",
"vs": [
8000,
9000,
10000,
11000,
11100
],
"line": "--disable",
"text": "# Firewall configuration\\nfirewall --disabled\\n"
},
{
"cmd": "firewall",
"cls": "F10_Firewall.cls",
"vs": [
8000,
9000,
10000,
11000,
11100
],
"line": "--disabled",
"text": "# Firewall configuration\\nfirewall --disabled\\n"
},
{
"cmd": "firewall",
"cls": "F10_Firewall.cls",
"vs": [
8000,
9000,
10000,
11000,
11100
],
"line": "--enable",
"text": "# Firewall configuration\\nfirewall --enabled\\n"
},
{
"cmd": "firewall",
"cls": "F10_Firewall.cls",
"vs": [
8000,
9000,
10000,
11000,
11100
],
"line": "--enabled",
"text": "# Firewall configuration\\nfirewall --enabled\\n"
},
{
"cmd": "firewall",
"cls": "F10_Firewall.cls",
"vs": [
8000,
9000,
10000,
11000,
11100
],
"line": "--port=QX:tcp",
"text": "# Firewall configuration\\nfirewall --enabled --port=QX:tcp\\n"
},
{
"cmd": "firewall",
"cls": "F10_Firewall.cls",
"vs": [
8000,
9000,
10000,
11000,
11100
],
"line": "--trust=QX",
"text": "# Firewall configuration\\nfirewall --enabled --trust=QX\\n"
},
{
"cmd": "firewall",
"cls": "F10_Firewall.cls",
"vs": [
8000,
9000,
10000,
11000,
11100
],
"line": "--service=QX",
"text": "# Firewall configuration\\nfirewall --enabled --service=QX\\n"
},
{
"cmd": "firewall",
"cls": "F10_Firewall.cls",
"vs": [
8000,
9000,
10000,
11000,
11100
],
"line": "--ftp",
"text": "# Firewall configuration\\nfirewall --enabled --service=ftp\\n"
},
{
"cmd": "firewall",
"cls": "F10_Firewall.cls",
"vs": [
8000,
9000,
10000,
11000,
11100
],
"line": "--http",
"text": "# Firewall configuration\\nfirewall --enabled --service=http\\n"
},
{
"cmd": "firewall",
"cls": "F10_Firewall.cls",
"vs": [
8000,
9000,
10000,
11000,
11100
],
"line": "--smtp",
"text": "# Firewall configuration\\nfirewall --enabled --service=smtp\\n"
},
{
"cmd": "firewall",
"cls": "F10_Firewall.cls",
"vs": [
8000,
9000,
10000,
11000,
11100
],
"line": "--ssh",
"text": "# Firewall configuration\\nfirewall --enabled --service=ssh\\n"
},
{
"cmd": "firewall",
"cls": "F10_Firewall.cls",
"vs": [
8000,
9000,
10000,
11000,
11100
],
"line": "--telnet=QX",
"text": "# Firewall configuration\\nfirewall --enabled\\n"
},
{
"cmd": "firewall",
"cls": "F10_Firewall.cls",
"vs": [
8000,
9000,
10000,
11000,
11100
],
"line": "--remove-service=QX",
"text": null
},
{
"cmd": "firewall",
"cls": "F10_Firewall.cls",
"vs": [
8000,
9000,
10000,
11000,
11100
],
"line": "--use-system-defaults",
"text": null
},
{
"cmd": "firewall",
"cls": "F10_Firewall.cls",
"vs": [
8000,
9000,
10000,
11000,
11100
],
"line": "--telnet",
"text": null
},
{
"cmd": "firewall",
"cls": "F10_Firewall.cls",
"vs": [
8000,
9000,
10000,
11000,
11100
],
"line": "--high=QX",
"text": null
},
{
"cmd": "firewall",
"cls": "F10_Firewall.cls",
"vs": [
8000,
9000,
10000,
11000,
11100
],
"line": "--medium=QX",
"text": null
},
{
"cmd": "firewall",
"cls": "F10_Firewall.cls",
"vs": [
8000,
9000,
10000,
11000,
11100
],
"line": "--port=ssh:tcp,telnet:tcp,smtp:tcp,http:tcp,ftp:tcp,imap:udp,99",
"text": "# Firewall configuration\\nfirewall --enabled --ssh --telnet --smtp --http --ftp --port=imap:udp,99:tcp\\n"
},
{
"cmd": "firewall",
"cls": "F10_Firewall.cls",
"vs": [
8000,
9000,
10000,
11000,
11100
],
"line": "--ssh --port=1:udp --trust=a --trust=b",
"text": "# Firewall configuration\\nfirewall --enabled --port=1:udp --trust=a,b --service=ssh\\n"
},
{
"cmd": "firewall",
"cls": "F10_Firewall.cls",
"vs": [
8000,
9000,
10000,
11000,
11100
],
"line": "--disabled --ssh",
"text": "# Firewall configuration\\nfirewall --disabled\\n"
},
{
"cmd": "firewall",
"cls": "F10_Firewall.cls",
"vs": [
8000,
9000,
10000,
11000,
11100
],
"line": "--service=a,b --remove-service=c,d --trust=t --port=5",
"text": null
},
{
"cmd": "firstboot",
"cls": "FC3_Firstboot.cls",
"vs": [
8000,
9000,
10000,
11000,
12000,
13000,
14000,
15000,
16000,
17000,
18000,
19000,
20000,
21000,
22000,
23000,
24000,
25000,
26000,
27000,
30000,
31000,
32000,
33000,
34000,
5000,
6000,
7000,
1000,
2000,
3000,
4000,
900,
1100,
4100,
11100,
19100,
26100
],
"line": "",
"text": ""
},
{
"cmd": "firstboot",
"cls": "FC3_Firstboot.cls",
"vs": [
8000,
9000,
10000,
11000,
12000,
13000,
14000,
15000,
16000,
17000,
18000,
19000,
20000,
21000,
22000,
23000,
24000,
25000,
26000,
27000,
30000,
31000,
32000,
33000,
34000,
5000,
6000,
7000,
1000,
2000,
3000,
4000,
900,
1100,
4100,
11100,
19100,
26100
],
"line": "--disable",
"text": "firstboot --disable\\n"
},
{
"cmd": "firstboot",
"cls": "FC3_Firstboot.cls",
"vs": [
8000,
9000,
10000,
11000,
12000,
13000,
14000,
15000,
16000,
17000,
18000,
19000,
20000,
21000,
22000,
23000,
24000,
25000,
26000,
27000,
30000,
31000,
32000,
33000,
34000,
5000,
6000,
7000,
1000,
2000,
3000,
4000,
900,
1100,
4100,
11100,
19100,
26100
],
"line": "--disabled",
"text": "firstboot --disable\\n"
},
{
"cmd": "firstboot",
"cls": "FC3_Firstboot.cls",
"vs": [
8000,
9000,
10000,
11000,
12000,
13000,
14000,
15000,
16000,
17000,
18000,
19000,
20000,
21000,
22000,
23000,
24000,
25000,
26000,
27000,
30000,
31000,
32000,
33000,
34000,
5000,
6000,
7000,
1000,
2000,
3000,
4000,
900,
1100,
4100,
11100,
19100,
26100
],
"line": "--enable",
"text": "# Run the Setup Agent on first boot\\nfirstboot --enable\\n"
},
{
"cmd": "firstboot",
"cls": "FC3_Firstboot.cls",
"vs": [
8000,
9000,
10000,
11000,
12000,
13000,
14000,
15000,
16000,
17000,
18000,
19000,
20000,
21000,
22000,
23000,
24000,
25000,
26000,
27000,
30000,
31000,
32000,
33000,
34000,
5000,
6000,
7000,
1000,
2000,
3000,
4000,
900,
1100,
4100,
11100,
19100,
26100
],
"line": "--enabled",
"text": "# Run the Setup Agent on first boot\\nfirstboot --enable\\n"
},
{
"cmd": "firstboot",
"cls": "FC3_Firstboot.cls",
"vs": [
8000,
9000,
10000,
11000,
12000,
13000,
14000,
15000,
16000,
17000,
18000,
19000,
20000,
21000,
22000,
23000,
24000,
25000,
26000,
27000,
30000,
31000,
32000,
33000,
34000,
5000,
6000,
7000,
1000,
2000,
3000,
4000,
900,
1100,
4100,
11100,
19100,
26100
],
"line": "--reconfig",
"text": "# Run the Setup Agent on first boot\\nfirstboot --reconfig\\n"
},
{
"cmd": "graphical",
"cls": "FC3_DisplayMode.cls",
"vs": [
8000,
9000,
10000,
11000,
12000,
13000,
14000,
15000,
16000,
17000,
18000,
19000,
20000,
21000,
22000,
23000,
5000,
6000,
7000,
1000,
2000,
3000,
4000,
900,
1100,
4100,
11100,
19100
],
"line": "",
"text": "# Use graphical install\\ngraphical\\n"
},
{
"cmd": "graphical",
"cls": "FC3_DisplayMode.cls",
"vs": [
8000,
9000,
10000,
11000,
12000,
13000,
14000,
15000,
16000,
17000,
18000,
19000,
20000,
21000,
22000,
23000,
5000,
6000,
7000,
1000,
2000,
3000,
4000,
900,
1100,
4100,
11100,
19100
],
"line": "--non-interactive",
"text": null
},
{
"cmd": "install",
"cls": "FC3_Upgrade.cls",
"vs": [
8000,
5000,
6000,
7000,
1000,
2000,
3000,
4000,
900,
1100,
4100
],
"line": "",
"text": "# Install OS instead of upgrade\\ninstall\\n"
},
{
"cmd": "install",
"cls": "FC3_Upgrade.cls",
"vs": [
8000,
5000,
6000,
7000,
1000,
2000,
3000,
4000,
900,
1100,
4100
],
"line": "--root-device=QX",
"text": null
},
{
"cmd": "interactive",
"cls": "FC3_Interactive.cls",
"vs": [
8000,
9000,
10000,
11000,
5000,
6000,
7000,
1000,
2000,
3000,
4000,
900,
1100,
4100,
11100
],
"line": "",
"text": "# Use interactive kickstart installation method\\ninteractive\\n"
},
{
"cmd": "interactive",
"cls": "FC3_Interactive.cls",
"vs": [
8000,
9000,
10000,
11000,
5000,
6000,
7000,
1000,
2000,
3000,
4000,
900,
1100,
4100,
11100
],
"line": "x",
"text": null
},
{
"cmd": "iscsiname",
"cls": "FC6_IscsiName.cls",
"vs": [
8000,
9000,
10000,
11000,
12000,
13000,
14000,
15000,
16000,
17000,
18000,
19000,
20000,
21000,
22000,
23000,
24000,
25000,
26000,
27000,
30000,
31000,
32000,
33000,
34000,
5000,
6000,
7000,
4000,
4100,
11100,
19100,
26100
],
"line": "I",
"text": "iscsiname I\\n"
},
{
"cmd": "keyboard",
"cls": "FC3_Keyboard.cls",
"vs": [
8000,
9000,
10000,
11000,
12000,
13000,
14000,
15000,
5000,
6000,
7000,
1000,
2000,
3000,
4000,
900,
1100,
4100,
11100
],
"line": "K",
"text": "# System keyboard\\nkeyboard K\\n"
},
{
"cmd": "keyboard",
"cls": "FC3_Keyboard.cls",
"vs": [
8000,
9000,
10000,
11000,
12000,
13000,
14000,
15000,
5000,
6000,
7000,
1000,
2000,
3000,
4000,
900,
1100,
4100,
11100
],
"line": "K --vckeymap=QX",
"text": null
},
{
"cmd": "keyboard",
"cls": "FC3_Keyboard.cls",
"vs": [
8000,
9000,
10000,
11000,
12000,
13000,
14000,
15000,
5000,
6000,
7000,
1000,
2000,
3000,
4000,
900,
1100,
4100,
11100
],
"line": "K --xlayouts=QX",
"text": null
},
{
"cmd": "keyboard",
"cls": "FC3_Keyboard.cls",
"vs": [
8000,
9000,
10000,
11000,
12000,
13000,
14000,
15000,
5000,
6000,
7000,
1000,
2000,
3000,
4000,
900,
1100,
4100,
11100
],
"line": "K --switch=QX",
"text": null
},
{
"cmd": "keyboard",
"cls": "FC3_Keyboard.cls",
"vs": [
8000,
9000,
10000,
11000,
12000,
13000,
14000,
15000,
5000,
6000,
7000,
1000,
2000,
3000,
4000,
900,
1100,
4100,
11100
],
"line": "K --vckeymap=v --xlayouts=a,b --switch=c,d",
"text": null
},
{
"cmd": "keyboard",
"cls": "FC3_Keyboard.cls",
"vs": [
8000,
9000,
10000,
11000,
12000,
13000,
14000,
15000,
5000,
6000,
7000,
1000,
2000,
3000,
4000,
900,
1100,
4100,
11100
],
"line": "--xlayouts=a",
"text": null
},
{
"cmd": "mediacheck",
"cls": "FC4_MediaCheck.cls",
"vs": [
8000,
9000,
10000,
11000,
12000,
13000,
14000,
15000,
16000,
17000,
18000,
19000,
20000,
21000,
22000,
23000,
24000,
25000,
26000,
27000,
30000,
31000,
32000,
33000,
34000,
5000,
6000,
7000,
2000,
3000,
4000,
4100,
11100,
19100,
26100
],
"line": "",
"text": "mediacheck\\n"
},
{
"cmd": "mediacheck",
"cls": "FC4_MediaCheck.cls",
"vs": [
8000,
9000,
10000,
11000,
12000,
13000,
14000,
15000,
16000,
17000,
18000,
19000,
20000,
21000,
22000,
23000,
24000,
25000,
26000,
27000,
30000,
31000,
32000,
33000,
34000,
5000,
6000,
7000,
2000,
3000,
4000,
4100,
11100,
19100,
26100
],
"line": "x",
"text": null
},
{
"cmd": "multipath",
"cls": "FC6_MultiPath.cls FC6_MultiPathData.cls",
"vs": [
8000,
9000,
10000,
11000,
12000,
13000,
14000,
15000,
16000,
17000,
18000,
19000,
20000,
21000,
5000,
6000,
7000,
4000,
4100,
11100,
19100
],
"line": "--name=n --device=d --rule=r",
"text": "multipath --name=n --device=d --rule=\\\"r\\\"\\n"
},
{
"cmd": "multipath",
"cls": "FC6_MultiPath.cls FC6_MultiPathData.cls",
"vs": [
8000,
9000,
10000,
11000,
12000,
13000,
14000,
15000,
16000,
17000,
18000,
19000,
20000,
21000,
5000,
6000,
7000,
4000,
4100,
11100,
19100
],
"line": "--name=n --device=d --rule=r --name=QX",
"text": "multipath --name=QX --device=d --rule=\\\"r\\\"\\n"
},
{
"cmd": "multipath",
"cls": "FC6_MultiPath.cls FC6_MultiPathData.cls",
"vs": [
8000,
9000,
10000,
11000,
12000,
13000,
14000,
15000,
16000,
17000,
18000,
19000,
20000,
21000,
5000,
6000,
7000,
4000,
4100,
11100,
19100
],
"line": "--name=n --device=d --rule=r --device=QX",
"text": "multipath --name=n --device=QX --rule=\\\"r\\\"\\n"
},
{
"cmd": "multipath",
"cls": "FC6_MultiPath.cls FC6_MultiPathData.cls",
"vs": [
8000,
9000,
10000,
11000,
12000,
13000,
14000,
15000,
16000,
17000,
18000,
19000,
20000,
21000,
5000,
6000,
7000,
4000,
4100,
11100,
19100
],
"line": "--name=n --device=d --rule=r --rule=QX",
"text": "multipath --name=n --device=d --rule=\\\"QX\\\"\\n"
},
{
"cmd": "raid",
"cls": "F9_Raid.cls F9_RaidData.cls",
"vs": [
8000,
9000,
7000
],
"line": "/x --device=1 --level=RAID1 raid.1 raid.2",
"text": "raid /x --device=1 --level=RAID1 raid.1 raid.2\\n"
},
{
"cmd": "raid",
"cls": "F9_Raid.cls F9_RaidData.cls",
"vs": [
8000,
9000,
7000
],
"line": "/x --device=1 --level=RAID1 raid.1 raid.2 --device=QX",
"text": null
},
{
"cmd": "raid",
"cls": "F9_Raid.cls F9_RaidData.cls",
"vs": [
8000,
9000,
7000
],
"line": "/x --device=1 --level=RAID1 raid.1 raid.2 --fstype=QX",
"text": "raid /x --device=1 --fstype=\\\"QX\\\" --level=RAID1 raid.1 raid.2\\n"
},
{
"cmd": "raid",
"cls": "F9_Raid.cls F9_RaidData.cls",
"vs": [
8000,
9000,
7000
],
"line": "/x --device=1 --level=RAID1 raid.1 raid.2 --level=RAID0",
"text": "raid /x --device=1 --level=RAID0 raid.1 raid.2\\n"
},
{
"cmd": "raid",
"cls": "F9_Raid.cls F9_RaidData.cls",
"vs": [
8000,
9000,
7000
],
"line": "/x --device=1 --level=RAID1 raid.1 raid.2 --level=0",
"text": "raid /x --device=1 --level=RAID0 raid.1 raid.2\\n"
},
{
"cmd": "raid",
"cls": "F9_Raid.cls F9_RaidData.cls",
"vs": [
8000,
9000,
7000
],
"line": "/x --device=1 --level=RAID1 raid.1 raid.2 --level=RAID1",
"text": "raid /x --device=1 --level=RAID1 raid.1 raid.2\\n"
},
{
"cmd": "raid",
"cls": "F9_Raid.cls F9_RaidData.cls",
"vs": [
8000,
9000,
7000
],
"line": "/x --device=1 --level=RAID1 raid.1 raid.2 --level=1",
"text": "raid /x --device=1 --level=RAID1 raid.1 raid.2\\n"
},
{
"cmd": "raid",
"cls": "F9_Raid.cls F9_RaidData.cls",
"vs": [
8000,
9000,
7000
],
"line": "/x --device=1 --level=RAID1 raid.1 raid.2 --level=RAID5",
"text": "raid /x --device=1 --level=RAID5 raid.1 raid.2\\n"
},
{
"cmd": "raid",
"cls": "F9_Raid.cls F9_RaidData.cls",
"vs": [
8000,
9000,
7000
],
"line": "/x --device=1 --level=RAID1 raid.1 raid.2 --level=5",
"text": "raid /x --device=1 --level=RAID5 raid.1 raid.2\\n"
},
{
"cmd": "raid",
"cls": "F9_Raid.cls F9_RaidData.cls",
"vs": [
8000,
9000,
7000
],
"line": "/x --device=1 --level=RAID1 raid.1 raid.2 --level=RAID6",
"text": "raid /x --device=1 --level=RAID6 raid.1 raid.2\\n"
},
{
"cmd": "raid",
"cls": "F9_Raid.cls F9_RaidData.cls",
"vs": [
8000,
9000,
7000
],
"line": "/x --device=1 --level=RAID1 raid.1 raid.2 --level=6",
"text": "raid /x --device=1 --level=RAID6 raid.1 raid.2\\n"
},
{
"cmd": "raid",
"cls": "F9_Raid.cls F9_RaidData.cls",
"vs": [
8000,
9000,
7000
],
"line": "/x --device=1 --level=RAID1 raid.1 raid.2 --level=RAID10",
"text": "raid /x --device=1 --level=RAID10 raid.1 raid.2\\n"
},
{
"cmd": "raid",
"cls": "F9_Raid.cls F9_RaidData.cls",
"vs": [
8000,
9000,
7000
],
"line": "/x --device=1 --level=RAID1 raid.1 raid.2 --level=10",
"text": "raid /x --device=1 --level=RAID10 raid.1 raid.2\\n"
},
{
"cmd": "raid",
"cls": "F9_Raid.cls F9_RaidData.cls",
"vs": [
8000,
9000,
7000
],
"line": "/x --device=1 --level=RAID1 raid.1 raid.2 --noformat",
"text": null
},
{
"cmd": "raid",
"cls": "F9_Raid.cls F9_RaidData.cls",
"vs": [
8000,
9000,
7000
],
"line": "/x --device=1 --level=RAID1 raid.1 raid.2 --spares=42",
"text": "raid /x --device=1 --level=RAID1 --spares=42 raid.1 raid.2\\n"
},
{
"cmd": "raid",
"cls": "F9_Raid.cls F9_RaidData.cls",
"vs": [
8000,
9000,
7000
],
"line": "/x --device=1 --level=RAID1 raid.1 raid.2 --useexisting",
"text": null
},
{
"cmd": "raid",
"cls": "F9_Raid.cls F9_RaidData.cls",
"vs": [
8000,
9000,
7000
],
"line": "/x --device=1 --level=RAID1 raid.1 raid.2 --fsoptions=QX",
"text": "raid /x --device=1 --level=RAID1 --fsoptions=\\\"QX\\\" raid.1 raid.2\\n"
},
{
"cmd": "raid",
"cls": "F9_Raid.cls F9_RaidData.cls",
"vs": [
8000,
9000,
7000
],
"line": "/x --device=1 --level=RAID1 raid.1 raid.2 --bytes-per-inode=QX",
"text": "raid /x --device=1 --level=RAID1 raid.1 raid.2\\n"
},
{
"cmd": "raid",
"cls": "F9_Raid.cls F9_RaidData.cls",
"vs": [
8000,
9000,
7000
],
"line": "/x --device=1 --level=RAID1 raid.1 raid.2 --fsprofile=QX",
"text": "raid /x --device=1 --level=RAID1 --fsprofile=\\\"QX\\\" raid.1 raid.2\\n"
},
{
"cmd": "raid",
"cls": "F9_Raid.cls F9_RaidData.cls",
"vs": [
8000,
9000,
7000
],
"line": "/x --device=1 --level=RAID1 raid.1 raid.2 --encrypted",
"text": "raid /x --device=1 --level=RAID1 --encrypted raid.1 raid.2\\n"
},
{
"cmd": "raid",
"cls": "F9_Raid.cls F9_RaidData.cls",
"vs": [
8000,
9000,
7000
],
"line": "/x --device=1 --level=RAID1 raid.1 raid.2 --passphrase=QX",
"text": "raid /x --device=1 --level=RAID1 raid.1 raid.2\\n"
},
{
"cmd": "raid",
"cls": "F9_Raid.cls F9_RaidData.cls",
"vs": [
8000,
9000,
7000
],
"line": "/x --device=1 --level=RAID1 raid.1 raid.2 --escrowcert=QX",
"text": null
},
{
"cmd": "raid",
"cls": "F9_Raid.cls F9_RaidData.cls",
"vs": [
8000,
9000,
7000
],
"line": "/x --device=1 --level=RAID1 raid.1 raid.2 --backuppassphrase",
"text": null
},
{
"cmd": "raid",
"cls": "F9_Raid.cls F9_RaidData.cls",
"vs": [
8000,
9000,
7000
],
"line": "/x --device=1 --level=RAID1 raid.1 raid.2 --level=RAID4",
"text": null
},
{
"cmd": "raid",
"cls": "F9_Raid.cls F9_RaidData.cls",
"vs": [
8000,
9000,
7000
],
"line": "/x --device=1 --level=RAID1 raid.1 raid.2 --level=4",
"text": null
},
{
"cmd": "raid",
"cls": "F9_Raid.cls F9_RaidData.cls",
"vs": [
8000,
9000,
7000
],
"line": "/x --device=1 --level=RAID1 raid.1 raid.2 --label=QX",
"text": null
},
{
"cmd": "raid",
"cls": "F9_Raid.cls F9_RaidData.cls",
"vs": [
8000,
9000,
7000
],
"line": "/x --device=1 --level=RAID1 raid.1 raid.2 --cipher=QX",
"text": null
},
{
"cmd": "raid",
"cls": "F9_Raid.cls F9_RaidData.cls",
"vs": [
8000,
9000,
7000
],
"line": "/x --device=1 --level=RAID1 raid.1 raid.2 --mkfsoptions=QX",
"text": null
},
{
"cmd": "raid",
"cls": "F9_Raid.cls F9_RaidData.cls",
"vs": [
8000,
9000,
7000
],
"line": "/x --device=1 --level=RAID1 raid.1 raid.2 --chunksize=42",
"text": null
},
{
"cmd": "raid",
"cls": "F9_Raid.cls F9_RaidData.cls",
"vs": [
8000,
9000,
7000
],
"line": "/x --device=1 --level=RAID1 raid.1 raid.2 --luks-version=QX",
"text": null
},
{
"cmd": "raid",
"cls": "F9_Raid.cls F9_RaidData.cls",
"vs": [
8000,
9000,
7000
],
"line": "/x --device=1 --level=RAID1 raid.1 raid.2 --pbkdf=QX",
"text": null
},
{
"cmd": "raid",
"cls": "F9_Raid.cls F9_RaidData.cls",
"vs": [
8000,
9000,
7000
],
"line": "/x --device=1 --level=RAID1 raid.1 raid.2 --pbkdf-memory=42",
"text": null
},
{
"cmd": "raid",
"cls": "F9_Raid.cls F9_RaidData.cls",
"vs": [
8000,
9000,
7000
],
"line": "/x --device=1 --level=RAID1 raid.1 raid.2 --pbkdf-time=42",
"text": null
},
{
"cmd": "raid",
"cls": "F9_Raid.cls F9_RaidData.cls",
"vs": [
8000,
9000,
7000
],
"line": "/x --device=1 --level=RAID1 raid.1 raid.2 --pbkdf-iterations=42",
"text": null
},
{
"cmd": "raid",
"cls": "F9_Raid.cls F9_RaidData.cls",
"vs": [
8000,
9000,
7000
],
"line": "/x --device=1 --level=RAID1 raid.1 raid.2 --bytes-per-inode=42",
"text": "raid /x --device=1 --level=RAID1 raid.1 raid.2\\n"
},
{
"cmd": "raid",
"cls": "F9_Raid.cls F9_RaidData.cls",
"vs": [
8000,
9000,
7000
],
"line": "/x --device=1 --level=RAID1 raid.1 raid.2 --encrypted --passphrase=QX",
"text": "raid /x --device=1 --level=RAID1 --encrypted --passphrase=\\\"QX\\\" raid.1 raid.2\\n"
},
{
"cmd": "raid",
"cls": "F9_Raid.cls F9_RaidData.cls",
"vs": [
8000,
9000,
7000
],
"line": "/x --device=1 --level=RAID1 raid.1 raid.2 --encrypted --escrowcert=QX",
"text": null
},
{
"cmd": "raid",
"cls": "F9_Raid.cls F9_RaidData.cls",
"vs": [
8000,
9000,
7000
],
"line": "/x --device=1 --level=RAID1 raid.1 raid.2 --encrypted --escrowcert=c --backuppassphrase",
"text": null
},
{
"cmd": "raid",
"cls": "F9_Raid.cls F9_RaidData.cls",
"vs": [
8000,
9000,
7000
],
"line": "/x --device=1 --level=RAID1 raid.1 raid.2 --encrypted --cipher=QX",
"text": null
},
{
"cmd": "raid",
"cls": "F9_Raid.cls F9_RaidData.cls",
"vs": [
8000,
9000,
7000
],
"line": "/x --device=1 --level=RAID1 raid.1 raid.2 --encrypted --luks-version=QX",
"text": null
},
{
"cmd": "raid",
"cls": "F9_Raid.cls F9_RaidData.cls",
"vs": [
8000,
9000,
7000
],
"line": "/x --device=1 --level=RAID1 raid.1 raid.2 --encrypted --pbkdf=QX",
"text": null
},
{
"cmd": "raid",
"cls": "F9_Raid.cls F9_RaidData.cls",
"vs": [
8000,
9000,
7000
],
"line": "/x --device=1 --level=RAID1 raid.1 raid.2 --encrypted --pbkdf-memory=42",
"text": null
},
{
"cmd": "raid",
"cls": "F9_Raid.cls F9_RaidData.cls",
"vs": [
8000,
9000,
7000
],
"line": "/x --device=1 --level=RAID1 raid.1 raid.2 --encrypted --pbkdf-time=42",
"text": null
},
{
"cmd": "raid",
"cls": "F9_Raid.cls F9_RaidData.cls",
"vs": [
8000,
9000,
7000
],
"line": "/x --device=1 --level=RAID1 raid.1 raid.2 --encrypted --pbkdf-iterations=42",
"text": null
},
{
"cmd": "raid",
"cls": "F9_Raid.cls F9_RaidData.cls",
"vs": [
8000,
9000,
7000
],
"line": "/x --device=1 --level=RAID1 raid.1 raid.2 raid.3 --spares=1 --fstype=ext4 --fsoptions=o --fsprofile=f --encrypted",
"text": "raid /x --device=1 --fstype=\\\"ext4\\\" --level=RAID1 --spares=1 --fsoptions=\\\"o\\\" --fsprofile=\\\"f\\\" --encrypted raid.1 raid.2 raid.3\\n"
},
{
"cmd": "raid",
"cls": "F9_Raid.cls F9_RaidData.cls",
"vs": [
8000,
9000,
7000
],
"line": "/x --device=1 --noformat",
"text": "raid /x --device=1 --noformat --useexisting\\n"
},
{
"cmd": "raid",
"cls": "F9_Raid.cls F9_RaidData.cls",
"vs": [
8000,
9000,
7000
],
"line": "/x --device=1 --noformat --fstype=ext4",
"text": "raid /x --device=1 --fstype=\\\"ext4\\\" --noformat --useexisting\\n"
},
{
"cmd": "raid",
"cls": "F9_Raid.cls F9_RaidData.cls",
"vs": [
8000,
9000,
7000
],
"line": "/x --device=1 --noformat --label=QX",
"text": null
},
{
"cmd": "raid",
"cls": "F9_Raid.cls F9_RaidData.cls",
"vs": [
8000,
9000,
7000
],
"line": "/x --device=1 --useexisting",
"text": "raid /x --device=1 --useexisting\\n"
},
{
"cmd": "raid",
"cls": "F9_Raid.cls F9_RaidData.cls",
"vs": [
8000,
9000,
7000
],
"line": "/x --device=1 --useexisting --fstype=ext4",
"text": "raid /x --device=1 --fstype=\\\"ext4\\\" --useexisting\\n"
},
{
"cmd": "raid",
"cls": "F9_Raid.cls F9_RaidData.cls",
"vs": [
8000,
9000,
7000
],
"line": "/x --device=1 --useexisting --label=QX",
"text": null
},
{
"cmd": "raid",
"cls": "F9_Raid.cls F9_RaidData.cls",
"vs": [
8000,
9000,
7000
],
"line": "/x --device=1 --level=RAID1 raid.1 raid.2 raid.3",
"text": "raid /x --device=1 --level=RAID1 raid.1 raid.2 raid.3\\n"
},
{
"cmd": "raid",
"cls": "F9_Raid.cls F9_RaidData.cls",
"vs": [
8000,
9000,
7000
],
"line": "/x --device=1 --level=RAID1 raid.1 raid.2 raid.3 --device=md7",
"text": "raid /x --device=7 --level=RAID1 raid.1 raid.2 raid.3\\n"
},
{
"cmd": "raid",
"cls": "F9_Raid.cls F9_RaidData.cls",
"vs": [
8000,
9000,
7000
],
"line": "/x --device=1 --level=RAID1 raid.1 raid.2 raid.3 --device=data",
"text": null
},
{
"cmd": "raid",
"cls": "F9_Raid.cls F9_RaidData.cls",
"vs": [
8000,
9000,
7000
],
"line": "/x --device=1 --level=RAID1 raid.1 raid.2 raid.3 --level=0",
"text": "raid /x --device=1 --level=RAID0 raid.1 raid.2 raid.3\\n"
},
{
"cmd": "raid",
"cls": "F9_Raid.cls F9_RaidData.cls",
"vs": [
8000,
9000,
7000
],
"line": "/x --device=1 --level=RAID1 raid.1 raid.2 raid.3 --level=RAID5",
"text": "raid /x --device=1 --level=RAID5 raid.1 raid.2 raid.3\\n"
},
{
"cmd": "raid",
"cls": "F9_Raid.cls F9_RaidData.cls",
"vs": [
8000,
9000,
7000
],
"line": "/x --device=1 --level=RAID1 raid.1 raid.2 raid.3 --level=raid6",
"text": "raid /x --device=1 --level=RAID6 raid.1 raid.2 raid.3\\n"
},
{
"cmd": "raid",
"cls": "F9_Raid.cls F9_RaidData.cls",
"vs": [
8000,
9000,
7000
],
"line": "/x --device=1 --level=RAID1 raid.1 raid.2 raid.3 --level=10",
"text": "raid /x --device=1 --level=RAID10 raid.1 raid.2 raid.3\\n"
},
{
"cmd": "raid",
"cls": "F9_Raid.cls F9_RaidData.cls",
"vs": [
8000,
9000,
7000
],
"line": "/x --device=1 --level=RAID1 raid.1 raid.2 raid.3 --level=linear",
"text": null
},
{
"cmd": "raid",
"cls": "F9_Raid.cls F9_RaidData.cls",
"vs": [
8000,
9000,
7000
],
"line": "/x --device=1 --level=RAID1 raid.1 raid.2 raid.3 --spares=1",
"text": "raid /x --device=1 --level=RAID1 --spares=1 raid.1 raid.2 raid.3\\n"
},
{
"cmd": "raid",
"cls": "F9_Raid.cls F9_RaidData.cls",
"vs": [
8000,
9000,
7000
],
"line": "/x --device=1 --level=RAID1 raid.1 raid.2 raid.3 --spares=2",
"text": "raid /x --device=1 --level=RAID1 --spares=2 raid.1 raid.2 raid.3\\n"
},
{
"cmd": "rootpw",
"cls": "F8_RootPw.cls",
"vs": [
8000,
9000,
10000,
11000,
12000,
13000,
14000,
15000,
6000,
7000,
11100
],
"line": "P",
"text": "# Root password\\nrootpw --plaintext P\\n"
},
{
"cmd": "rootpw",
"cls": "F8_RootPw.cls",
"vs": [
8000,
9000,
10000,
11000,
12000,
13000,
14000,
15000,
6000,
7000,
11100
],
"line": "P --iscrypted",
"text": "# Root password\\nrootpw --iscrypted P\\n"
},
{
"cmd": "rootpw",
"cls": "F8_RootPw.cls",
"vs": [
8000,
9000,
10000,
11000,
12000,
13000,
14000,
15000,
6000,
7000,
11100
],
"line": "P --lock",
"text": "# Root password\\nrootpw --lock --plaintext P\\n"
},
{
"cmd": "rootpw",
"cls": "F8_RootPw.cls",
"vs": [
8000,
9000,
10000,
11000,
12000,
13000,
14000,
15000,
6000,
7000,
11100
],
"line": "P --plaintext",
"text": "# Root password\\nrootpw --plaintext P\\n"
},
{
"cmd": "rootpw",
"cls": "F8_RootPw.cls",
"vs": [
8000,
9000,
10000,
11000,
12000,
13000,
14000,
15000,
6000,
7000,
11100
],
"line": "a#b",
"text": "# Root password\\nrootpw --plaintext \\\"a#b\\\"\\n"
},
{
"cmd": "rootpw",
"cls": "F8_RootPw.cls",
"vs": [
8000,
9000,
10000,
11000,
12000,
13000,
14000,
15000,
6000,
7000,
11100
],
"line": "--iscrypted a#b",
"text": "# Root password\\nrootpw --iscrypted \\\"a#b\\\"\\n"
},
{
"cmd": "rootpw",
"cls": "F8_RootPw.cls",
"vs": [
8000,
9000,
10000,
11000,
12000,
13000,
14000,
15000,
6000,
7000,
11100
],
"line": "--lock a",
"text": "# Root password\\nrootpw --lock --plaintext a\\n"
},
{
"cmd": "skipx",
"cls": "FC3_SkipX.cls",
"vs": [
8000,
9000,
10000,
11000,
12000,
13000,
14000,
15000,
16000,
17000,
18000,
19000,
20000,
21000,
22000,
23000,
24000,
25000,
26000,
27000,
30000,
31000,
32000,
33000,
34000,
5000,
6000,
7000,
1000,
2000,
3000,
4000,
900,
1100,
4100,
11100,
19100,
26100
],
"line": "",
"text": "# Do not configure the X Window System\\nskipx\\n"
},
{
"cmd": "skipx",
"cls": "FC3_SkipX.cls",
"vs": [
8000,
9000,
10000,
11000,
12000,
13000,
14000,
15000,
16000,
17000,
18000,
19000,
20000,
21000,
22000,
23000,
24000,
25000,
26000,
27000,
30000,
31000,
32000,
33000,
34000,
5000,
6000,
7000,
1000,
2000,
3000,
4000,
900,
1100,
4100,
11100,
19100,
26100
],
"line": "x",
"text": null
},
{
"cmd": "skipx",
"cls": "FC3_SkipX.cls",
"vs": [
8000,
9000,
10000,
11000,
12000,
13000,
14000,
15000,
16000,
17000,
18000,
19000,
20000,
21000,
22000,
23000,
24000,
25000,
26000,
27000,
30000,
31000,
32000,
33000,
34000,
5000,
6000,
7000,
1000,
2000,
3000,
4000,
900,
1100,
4100,
11100,
19100,
26100
],
"line": "--x",
"text": null
},
{
"cmd": "text",
"cls": "FC3_DisplayMode.cls",
"vs": [
8000,
9000,
10000,
11000,
12000,
13000,
14000,
15000,
16000,
17000,
18000,
19000,
20000,
21000,
22000,
23000,
5000,
6000,
7000,
1000,
2000,
3000,
4000,
900,
1100,
4100,
11100,
19100
],
"line": "",
"text": "# Use text mode install\\ntext\\n"
},
{
"cmd": "text",
"cls": "FC3_DisplayMode.cls",
"vs": [
8000,
9000,
10000,
11000,
12000,
13000,
14000,
15000,
16000,
17000,
18000,
19000,
20000,
21000,
22000,
23000,
5000,
6000,
7000,
1000,
2000,
3000,
4000,
900,
1100,
4100,
11100,
19100
],
"line": "--non-interactive",
"text": null
},
{
"cmd": "updates",
"cls": "F7_Updates.cls",
"vs": [
8000,
9000,
10000,
11000,
12000,
13000,
14000,
15000,
16000,
17000,
18000,
19000,
20000,
21000,
22000,
23000,
24000,
25000,
26000,
27000,
30000,
31000,
32000,
33000,
5000,
6000,
7000,
11100,
19100,
26100
],
"line": "",
"text": "updates\\n"
},
{
"cmd": "updates",
"cls": "F7_Updates.cls",
"vs": [
8000,
9000,
10000,
11000,
12000,
13000,
14000,
15000,
16000,
17000,
18000,
19000,
20000,
21000,
22000,
23000,
24000,
25000,
26000,
27000,
30000,
31000,
32000,
33000,
5000,
6000,
7000,
11100,
19100,
26100
],
"line": "U",
"text": "updates U\\n"
},
{
"cmd": "upgrade",
"cls": "FC3_Upgrade.cls",
"vs": [
8000,
5000,
6000,
7000,
1000,
2000,
3000,
4000,
900,
1100,
4100
],
"line": "",
"text": "# Upgrade existing installation\\nupgrade\\n"
},
{
"cmd": "upgrade",
"cls": "FC3_Upgrade.cls",
"vs": [
8000,
5000,
6000,
7000,
1000,
2000,
3000,
4000,
900,
1100,
4100
],
"line": "--root-device=QX",
"text": null
},
{
"cmd": "volgroup",
"cls": "FC3_VolGroup.cls FC3_VolGroupData.cls",
"vs": [
8000,
9000,
10000,
11000,
12000,
13000,
5000,
6000,
7000,
1000,
2000,
3000,
4000,
900,
1100,
4100
],
"line": "g pv.1",
"text": "volgroup g --pesize=32768 pv.1\\n"
},
{
"cmd": "volgroup",
"cls": "FC3_VolGroup.cls FC3_VolGroupData.cls",
"vs": [
8000,
9000,
10000,
11000,
12000,
13000,
5000,
6000,
7000,
1000,
2000,
3000,
4000,
900,
1100,
4100
],
"line": "g pv.1 --noformat",
"text": null
},
{
"cmd": "volgroup",
"cls": "FC3_VolGroup.cls FC3_VolGroupData.cls",
"vs": [
8000,
9000,
10000,
11000,
12000,
13000,
5000,
6000,
7000,
1000,
2000,
3000,
4000,
900,
1100,
4100
],
"line": "g pv.1 --pesize=42",
"text": "volgroup g --pesize=42 pv.1\\n"
},
{
"cmd": "volgroup",
"cls": "FC3_VolGroup.cls FC3_VolGroupData.cls",
"vs": [
8000,
9000,
10000,
11000,
12000,
13000,
5000,
6000,
7000,
1000,
2000,
3000,
4000,
900,
1100,
4100
],
"line": "g pv.1 --useexisting",
"text": null
},
{
"cmd": "volgroup",
"cls": "FC3_VolGroup.cls FC3_VolGroupData.cls",
"vs": [
8000,
9000,
10000,
11000,
12000,
13000,
5000,
6000,
7000,
1000,
2000,
3000,
4000,
900,
1100,
4100
],
"line": "g pv.1 --reserved-space=42",
"text": "volgroup g --pesize=32768 --reserved-space=42\\n"
},
{
"cmd": "volgroup",
"cls": "FC3_VolGroup.cls FC3_VolGroupData.cls",
"vs": [
8000,
9000,
10000,
11000,
12000,
13000,
5000,
6000,
7000,
1000,
2000,
3000,
4000,
900,
1100,
4100
],
"line": "g pv.1 --reserved-percent=42",
"text": "volgroup g --pesize=32768 --reserved-percent=42\\n"
},
{
"cmd": "volgroup",
"cls": "FC3_VolGroup.cls FC3_VolGroupData.cls",
"vs": [
8000,
9000,
10000,
11000,
12000,
13000,
5000,
6000,
7000,
1000,
2000,
3000,
4000,
900,
1100,
4100
],
"line": "g pv.1 pv.2 --pesize=8",
"text": "volgroup g --pesize=8 pv.1 pv.2\\n"
},
{
"cmd": "volgroup",
"cls": "FC3_VolGroup.cls FC3_VolGroupData.cls",
"vs": [
8000,
9000,
10000,
11000,
12000,
13000,
5000,
6000,
7000,
1000,
2000,
3000,
4000,
900,
1100,
4100
],
"line": "g --noformat",
"text": "volgroup g --noformat --pesize=32768 --useexisting\\n"
},
{
"cmd": "volgroup",
"cls": "FC3_VolGroup.cls FC3_VolGroupData.cls",
"vs": [
8000,
9000,
10000,
11000,
12000,
13000,
5000,
6000,
7000,
1000,
2000,
3000,
4000,
900,
1100,
4100
],
"line": "g --useexisting",
"text": "volgroup g --pesize=32768 --useexisting\\n"
},
{
"cmd": "volgroup",
"cls": "FC3_VolGroup.cls FC3_VolGroupData.cls",
"vs": [
8000,
9000,
10000,
11000,
12000,
13000,
5000,
6000,
7000,
1000,
2000,
3000,
4000,
900,
1100,
4100
],
"line": "g --useexisting --noformat",
"text": "volgroup g --noformat --pesize=32768 --useexisting\\n"
},
{
"cmd": "zerombr",
"cls": "F9_ZeroMbr.cls",
"vs": [
8000,
9000,
10000,
11000,
12000,
13000,
14000,
15000,
16000,
17000,
18000,
19000,
20000,
21000,
22000,
23000,
24000,
25000,
26000,
27000,
30000,
31000,
32000,
33000,
34000,
7000,
11100,
19100,
26100
],
"line": "",
"text": "# Clear the Master Boot Record\\nzerombr\\n"
},
{
"cmd": "zerombr",
"cls": "F9_ZeroMbr.cls",
"vs": [
8000,
9000,
10000,
11000,
12000,
13000,
14000,
15000,
16000,
17000,
18000,
19000,
20000,
21000,
22000,
23000,
24000,
25000,
26000,
27000,
30000,
31000,
32000,
33000,
34000,
7000,
11100,
19100,
26100
],
"line": "x",
"text": null
},
{
"cmd": "zerombr",
"cls": "F9_ZeroMbr.cls",
"vs": [
8000,
9000,
10000,
11000,
12000,
13000,
14000,
15000,
16000,
17000,
18000,
19000,
20000,
21000,
22000,
23000,
24000,
25000,
26000,
27000,
30000,
31000,
32000,
33000,
34000,
7000,
11100,
19100,
26100
],
"line": "yes",
"text": null
},
{
"cmd": "install",
"cls": "F11_Upgrade.cls",
"vs": [
9000,
10000,
11000,
12000,
13000,
14000,
15000,
16000,
17000,
11100,
19100
],
"line": "",
"text": "# Install OS instead of upgrade\\ninstall\\n"
},
{
"cmd": "install",
"cls": "F11_Upgrade.cls",
"vs": [
9000,
10000,
11000,
12000,
13000,
14000,
15000,
16000,
17000,
11100,
19100
],
"line": "--root-device=QX",
"text": "# Install OS instead of upgrade\\ninstall\\n"
},
{
"cmd": "upgrade",
"cls": "F11_Upgrade.cls",
"vs": [
9000,
10000,
11000,
12000,
13000,
14000,
15000,
16000,
17000,
11100
],
"line": "",
"text": "# Upgrade existing installation\\nupgrade\\n"
},
{
"cmd": "upgrade",
"cls": "F11_Upgrade.cls",
"vs": [
9000,
10000,
11000,
12000,
13000,
14000,
15000,
16000,
17000,
11100
],
"line": "--root-device=QX",
"text": "# Upgrade existing installation\\nupgrade --root-device=QX\\n"
},
{
"cmd": "raid",
"cls": "F12_Raid.cls F12_RaidData.cls",
"vs": [
10000
],
"line": "/x --device=1 --level=RAID1 raid.1 raid.2",
"text": "raid /x --device=1 --level=RAID1 raid.1 raid.2\\n"
},
{
"cmd": "raid",
"cls": "F12_Raid.cls F12_RaidData.cls",
"vs": [
10000
],
"line": "/x --device=1 --level=RAID1 raid.1 raid.2 --device=QX",
"text": null
},
{
"cmd": "raid",
"cls": "F12_Raid.cls F12_RaidData.cls",
"vs": [
10000
],
"line": "/x --device=1 --level=RAID1 raid.1 raid.2 --fstype=QX",
"text": "raid /x --device=1 --fstype=\\\"QX\\\" --level=RAID1 raid.1 raid.2\\n"
},
{
"cmd": "raid",
"cls": "F12_Raid.cls F12_RaidData.cls",
"vs": [
10000
],
"line": "/x --device=1 --level=RAID1 raid.1 raid.2 --level=RAID0",
"text": "raid /x --device=1 --level=RAID0 raid.1 raid.2\\n"
},
{
"cmd": "raid",
"cls": "F12_Raid.cls F12_RaidData.cls",
"vs": [
10000
],
"line": "/x --device=1 --level=RAID1 raid.1 raid.2 --level=0",
"text": "raid /x --device=1 --level=RAID0 raid.1 raid.2\\n"
},
{
"cmd": "raid",
"cls": "F12_Raid.cls F12_RaidData.cls",
"vs": [
10000
],
"line": "/x --device=1 --level=RAID1 raid.1 raid.2 --level=RAID1",
"text": "raid /x --device=1 --level=RAID1 raid.1 raid.2\\n"
},
{
"cmd": "raid",
"cls": "F12_Raid.cls F12_RaidData.cls",
"vs": [
10000
],
"line": "/x --device=1 --level=RAID1 raid.1 raid.2 --level=1",
"text": "raid /x --device=1 --level=RAID1 raid.1 raid.2\\n"
},
{
"cmd": "raid",
"cls": "F12_Raid.cls F12_RaidData.cls",
"vs": [
10000
],
"line": "/x --device=1 --level=RAID1 raid.1 raid.2 --level=RAID5",
"text": "raid /x --device=1 --level=RAID5 raid.1 raid.2\\n"
},
{
"cmd": "raid",
"cls": "F12_Raid.cls F12_RaidData.cls",
"vs": [
10000
],
"line": "/x --device=1 --level=RAID1 raid.1 raid.2 --level=5",
"text": "raid /x --device=1 --level=RAID5 raid.1 raid.2\\n"
},
{
"cmd": "raid",
"cls": "F12_Raid.cls F12_RaidData.cls",
"vs": [
10000
],
"line": "/x --device=1 --level=RAID1 raid.1 raid.2 --level=RAID6",
"text": "raid /x --device=1 --level=RAID6 raid.1 raid.2\\n"
},
{
"cmd": "raid",
"cls": "F12_Raid.cls F12_RaidData.cls",
"vs": [
10000
],
"line": "/x --device=1 --level=RAID1 raid.1 raid.2 --level=6",
"text": "raid /x --device=1 --level=RAID6 raid.1 raid.2\\n"
},
{
"cmd": "raid",
"cls": "F12_Raid.cls F12_RaidData.cls",
"vs": [
10000
],
"line": "/x --device=1 --level=RAID1 raid.1 raid.2 --level=RAID10",
"text": "raid /x --device=1 --level=RAID10 raid.1 raid.2\\n"
},
{
"cmd": "raid",
"cls": "F12_Raid.cls F12_RaidData.cls",
"vs": [
10000
],
"line": "/x --device=1 --level=RAID1 raid.1 raid.2 --level=10",
"text": "raid /x --device=1 --level=RAID10 raid.1 raid.2\\n"
},
{
"cmd": "raid",
"cls": "F12_Raid.cls F12_RaidData.cls",
"vs": [
10000
],
"line": "/x --device=1 --level=RAID1 raid.1 raid.2 --noformat",
"text": null
},
{
"cmd": "raid",
"cls": "F12_Raid.cls F12_RaidData.cls",
"vs": [
10000
],
"line": "/x --device=1 --level=RAID1 raid.1 raid.2 --spares=42",
"text": "raid /x --device=1 --level=RAID1 --spares=42 raid.1 raid.2\\n"
},
{
"cmd": "raid",
"cls": "F12_Raid.cls F12_RaidData.cls",
"vs": [
10000
],
"line": "/x --device=1 --level=RAID1 raid.1 raid.2 --useexisting",
"text": null
},
{
"cmd": "raid",
"cls": "F12_Raid.cls F12_RaidData.cls",
"vs": [
10000
],
"line": "/x --device=1 --level=RAID1 raid.1 raid.2 --fsoptions=QX",
"text": "raid /x --device=1 --level=RAID1 --fsoptions=\\\"QX\\\" raid.1 raid.2\\n"
},
{
"cmd": "raid",
"cls": "F12_Raid.cls F12_RaidData.cls",
"vs": [
10000
],
"line": "/x --device=1 --level=RAID1 raid.1 raid.2 --bytes-per-inode=QX",
"text": "raid /x --device=1 --level=RAID1 raid.1 raid.2\\n"
},
{
"cmd": "raid",
"cls": "F12_Raid.cls F12_RaidData.cls",
"vs": [
10000
],
"line": "/x --device=1 --level=RAID1 raid.1 raid.2 --fsprofile=QX",
"text": "raid /x --device=1 --level=RAID1 --fsprofile=\\\"QX\\\" raid.1 raid.2\\n"
},
{
"cmd": "raid",
"cls": "F12_Raid.cls F12_RaidData.cls",
"vs": [
10000
],
"line": "/x --device=1 --level=RAID1 raid.1 raid.2 --encrypted",
"text": "raid /x --device=1 --level=RAID1 --encrypted raid.1 raid.2\\n"
},
{
"cmd": "raid",
"cls": "F12_Raid.cls F12_RaidData.cls",
"vs": [
10000
],
"line": "/x --device=1 --level=RAID1 raid.1 raid.2 --passphrase=QX",
"text": "raid /x --device=1 --level=RAID1 raid.1 raid.2\\n"
},
{
"cmd": "raid",
"cls": "F12_Raid.cls F12_RaidData.cls",
"vs": [
10000
],
"line": "/x --device=1 --level=RAID1 raid.1 raid.2 --escrowcert=QX",
"text": "raid /x --device=1 --level=RAID1 raid.1 raid.2\\n"
},
{
"cmd": "raid",
"cls": "F12_Raid.cls F12_RaidData.cls",
"vs": [
10000
],
"line": "/x --device=1 --level=RAID1 raid.1 raid.2 --backuppassphrase",
"text": "raid /x --device=1 --level=RAID1 raid.1 raid.2\\n"
},
{
"cmd": "raid",
"cls": "F12_Raid.cls F12_RaidData.cls",
"vs": [
10000
],
"line": "/x --device=1 --level=RAID1 raid.1 raid.2 --level=RAID4",
"text": null
},
{
"cmd": "raid",
"cls": "F12_Raid.cls F12_RaidData.cls",
"vs": [
10000
],
"line": "/x --device=1 --level=RAID1 raid.1 raid.2 --level=4",
"text": null
},
{
"cmd": "raid",
"cls": "F12_Raid.cls F12_RaidData.cls",
"vs": [
10000
],
"line": "/x --device=1 --level=RAID1 raid.1 raid.2 --label=QX",
"text": null
},
{
"cmd": "raid",
"cls": "F12_Raid.cls F12_RaidData.cls",
"vs": [
10000
],
"line": "/x --device=1 --level=RAID1 raid.1 raid.2 --cipher=QX",
"text": null
},
{
"cmd": "raid",
"cls": "F12_Raid.cls F12_RaidData.cls",
"vs": [
10000
],
"line": "/x --device=1 --level=RAID1 raid.1 raid.2 --mkfsoptions=QX",
"text": null
},
{
"cmd": "raid",
"cls": "F12_Raid.cls F12_RaidData.cls",
"vs": [
10000
],
"line": "/x --device=1 --level=RAID1 raid.1 raid.2 --chunksize=42",
"text": null
},
{
"cmd": "raid",
"cls": "F12_Raid.cls F12_RaidData.cls",
"vs": [
10000
],
"line": "/x --device=1 --level=RAID1 raid.1 raid.2 --luks-version=QX",
"text": null
},
{
"cmd": "raid",
"cls": "F12_Raid.cls F12_RaidData.cls",
"vs": [
10000
],
"line": "/x --device=1 --level=RAID1 raid.1 raid.2 --pbkdf=QX",
"text": null
},
{
"cmd": "raid",
"cls": "F12_Raid.cls F12_RaidData.cls",
"vs": [
10000
],
"line": "/x --device=1 --level=RAID1 raid.1 raid.2 --pbkdf-memory=42",
"text": null
},
{
"cmd": "raid",
"cls": "F12_Raid.cls F12_RaidData.cls",
"vs": [
10000
],
"line": "/x --device=1 --level=RAID1 raid.1 raid.2 --pbkdf-time=42",
"text": null
},
{
"cmd": "raid",
"cls": "F12_Raid.cls F12_RaidData.cls",
"vs": [
10000
],
"line": "/x --device=1 --level=RAID1 raid.1 raid.2 --pbkdf-iterations=42",
"text": null
},
{
"cmd": "raid",
"cls": "F12_Raid.cls F12_RaidData.cls",
"vs": [
10000
],
"line": "/x --device=1 --level=RAID1 raid.1 raid.2 --bytes-per-inode=42",
"text": "raid /x --device=1 --level=RAID1 raid.1 raid.2\\n"
},
{
"cmd": "raid",
"cls": "F12_Raid.cls F12_RaidData.cls",
"vs": [
10000
],
"line": "/x --device=1 --level=RAID1 raid.1 raid.2 --encrypted --passphrase=QX",
"text": "raid /x --device=1 --level=RAID1 --encrypted --passphrase=\\\"QX\\\" raid.1 raid.2\\n"
},
{
"cmd": "raid",
"cls": "F12_Raid.cls F12_RaidData.cls",
"vs": [
10000
],
"line": "/x --device=1 --level=RAID1 raid.1 raid.2 --encrypted --escrowcert=QX",
"text": "raid /x --device=1 --level=RAID1 --encrypted --escrowcert=\\\"QX\\\" raid.1 raid.2\\n"
},
{
"cmd": "raid",
"cls": "F12_Raid.cls F12_RaidData.cls",
"vs": [
10000
],
"line": "/x --device=1 --level=RAID1 raid.1 raid.2 --encrypted --escrowcert=c --backuppassphrase",
"text": "raid /x --device=1 --level=RAID1 --encrypted --escrowcert=\\\"c\\\" --backuppassphrase raid.1 raid.2\\n"
},
{
"cmd": "raid",
"cls": "F12_Raid.cls F12_RaidData.cls",
"vs": [
10000
],
"line": "/x --device=1 --level=RAID1 raid.1 raid.2 --encrypted --cipher=QX",
"text": null
},
{
"cmd": "raid",
"cls": "F12_Raid.cls F12_RaidData.cls",
"vs": [
10000
],
"line": "/x --device=1 --level=RAID1 raid.1 raid.2 --encrypted --luks-version=QX",
"text": null
},
{
"cmd": "raid",
"cls": "F12_Raid.cls F12_RaidData.cls",
"vs": [
10000
],
"line": "/x --device=1 --level=RAID1 raid.1 raid.2 --encrypted --pbkdf=QX",
"text": null
},
{
"cmd": "raid",
"cls": "F12_Raid.cls F12_RaidData.cls",
"vs": [
10000
],
"line": "/x --device=1 --level=RAID1 raid.1 raid.2 --encrypted --pbkdf-memory=42",
"text": null
},
{
"cmd": "raid",
"cls": "F12_Raid.cls F12_RaidData.cls",
"vs": [
10000
],
"line": "/x --device=1 --level=RAID1 raid.1 raid.2 --encrypted --pbkdf-time=42",
"text": null
},
{
"cmd": "raid",
"cls": "F12_Raid.cls F12_RaidData.cls",
"vs": [
10000
],
"line": "/x --device=1 --level=RAID1 raid.1 raid.2 --encrypted --pbkdf-iterations=42",
"text": null
},
{
"cmd": "raid",
"cls": "F12_Raid.cls F12_RaidData.cls",
"vs": [
10000
],
"line": "/x --device=1 --level=RAID1 raid.1 raid.2 raid.3 --spares=1 --fstype=ext4 --fsoptions=o --fsprofile=f --encrypted",
"text": "raid /x --device=1 --fstype=\\\"ext4\\\" --level=RAID1 --spares=1 --fsoptions=\\\"o\\\" --fsprofile=\\\"f\\\" --encrypted raid.1 raid.2 raid.3\\n"
},
{
"cmd": "raid",
"cls": "F12_Raid.cls F12_RaidData.cls",
"vs": [
10000
],
"line": "/x --device=1 --noformat",
"text": "raid /x --device=1 --noformat --useexisting\\n"
},
{
"cmd": "raid",
"cls": "F12_Raid.cls F12_RaidData.cls",
"vs": [
10000
],
"line": "/x --device=1 --noformat --fstype=ext4",
"text": "raid /x --device=1 --fstype=\\\"ext4\\\" --noformat --useexisting\\n"
},
{
"cmd": "raid",
"cls": "F12_Raid.cls F12_RaidData.cls",
"vs": [
10000
],
"line": "/x --device=1 --noformat --label=QX",
"text": null
},
{
"cmd": "raid",
"cls": "F12_Raid.cls F12_RaidData.cls",
"vs": [
10000
],
"line": "/x --device=1 --useexisting",
"text": "raid /x --device=1 --useexisting\\n"
},
{
"cmd": "raid",
"cls": "F12_Raid.cls F12_RaidData.cls",
"vs": [
10000
],
"line": "/x --device=1 --useexisting --fstype=ext4",
"text": "raid /x --device=1 --fstype=\\\"ext4\\\" --useexisting\\n"
},
{
"cmd": "raid",
"cls": "F12_Raid.cls F12_RaidData.cls",
"vs": [
10000
],
"line": "/x --device=1 --useexisting --label=QX",
"text": null
},
{
"cmd": "raid",
"cls": "F12_Raid.cls F12_RaidData.cls",
"vs": [
10000
],
"line": "/x --device=1 --level=RAID1 raid.1 raid.2 raid.3",
"text": "raid /x --device=1 --level=RAID1 raid.1 raid.2 raid.3\\n"
},
{
"cmd": "raid",
"cls": "F12_Raid.cls F12_RaidData.cls",
"vs": [
10000
],
"line": "/x --device=1 --level=RAID1 raid.1 raid.2 raid.3 --device=md7",
"text": "raid /x --device=7 --level=RAID1 raid.1 raid.2 raid.3\\n"
},
{
"cmd": "raid",
"cls": "F12_Raid.cls F12_RaidData.cls",
"vs": [
10000
],
"line": "/x --device=1 --level=RAID1 raid.1 raid.2 raid.3 --device=data",
"text": null
},
{
"cmd": "raid",
"cls": "F12_Raid.cls F12_RaidData.cls",
"vs": [
10000
],
"line": "/x --device=1 --level=RAID1 raid.1 raid.2 raid.3 --level=0",
"text": "raid /x --device=1 --level=RAID0 raid.1 raid.2 raid.3\\n"
},
{
"cmd": "raid",
"cls": "F12_Raid.cls F12_RaidData.cls",
"vs": [
10000
],
"line": "/x --device=1 --level=RAID1 raid.1 raid.2 raid.3 --level=RAID5",
"text": "raid /x --device=1 --level=RAID5 raid.1 raid.2 raid.3\\n"
},
{
"cmd": "raid",
"cls": "F12_Raid.cls F12_RaidData.cls",
"vs": [
10000
],
"line": "/x --device=1 --level=RAID1 raid.1 raid.2 raid.3 --level=raid6",
"text": "raid /x --device=1 --level=RAID6 raid.1 raid.2 raid.3\\n"
},
{
"cmd": "raid",
"cls": "F12_Raid.cls F12_RaidData.cls",
"vs": [
10000
],
"line": "/x --device=1 --level=RAID1 raid.1 raid.2 raid.3 --level=10",
"text": "raid /x --device=1 --level=RAID10 raid.1 raid.2 raid.3\\n"
},
{
"cmd": "raid",
"cls": "F12_Raid.cls F12_RaidData.cls",
"vs": [
10000
],
"line": "/x --device=1 --level=RAID1 raid.1 raid.2 raid.3 --level=linear",
"text": null
},
{
"cmd": "raid",
"cls": "F12_Raid.cls F12_RaidData.cls",
"vs": [
10000
],
"line": "/x --device=1 --level=RAID1 raid.1 raid.2 raid.3 --spares=1",
"text": "raid /x --device=1 --level=RAID1 --spares=1 raid.1 raid.2 raid.3\\n"
},
{
"cmd": "raid",
"cls": "F12_Raid.cls F12_RaidData.cls",
"vs": [
10000
],
"line": "/x --device=1 --level=RAID1 raid.1 raid.2 raid.3 --spares=2",
"text": "raid /x --device=1 --level=RAID1 --spares=2 raid.1 raid.2 raid.3\\n"
},
{
"cmd": "raid",
"cls": "F13_Raid.cls F13_RaidData.cls",
"vs": [
11000
],
"line": "/x --device=1 --level=RAID1 raid.1 raid.2",
"text": "raid /x --device=1 --level=RAID1 raid.1 raid.2\\n"
},
{
"cmd": "raid",
"cls": "F13_Raid.cls F13_RaidData.cls",
"vs": [
11000
],
"line": "/x --device=1 --level=RAID1 raid.1 raid.2 --device=QX",
"text": null
},
{
"cmd": "raid",
"cls": "F13_Raid.cls F13_RaidData.cls",
"vs": [
11000
],
"line": "/x --device=1 --level=RAID1 raid.1 raid.2 --fstype=QX",
"text": "raid /x --device=1 --fstype=\\\"QX\\\" --level=RAID1 raid.1 raid.2\\n"
},
{
"cmd": "raid",
"cls": "F13_Raid.cls F13_RaidData.cls",
"vs": [
11000
],
"line": "/x --device=1 --level=RAID1 raid.1 raid.2 --level=RAID0",
"text": "raid /x --device=1 --level=RAID0 raid.1 raid.2\\n"
},
{
"cmd": "raid",
"cls": "F13_Raid.cls F13_RaidData.cls",
"vs": [
11000
],
"line": "/x --device=1 --level=RAID1 raid.1 raid.2 --level=0",
"text": "raid /x --device=1 --level=RAID0 raid.1 raid.2\\n"
},
{
"cmd": "raid",
"cls": "F13_Raid.cls F13_RaidData.cls",
"vs": [
11000
],
"line": "/x --device=1 --level=RAID1 raid.1 raid.2 --level=RAID1",
"text": "raid /x --device=1 --level=RAID1 raid.1 raid.2\\n"
},
{
"cmd": "raid",
"cls": "F13_Raid.cls F13_RaidData.cls",
"vs": [
11000
],
"line": "/x --device=1 --level=RAID1 raid.1 raid.2 --level=1",
"text": "raid /x --device=1 --level=RAID1 raid.1 raid.2\\n"
},
{
"cmd": "raid",
"cls": "F13_Raid.cls F13_RaidData.cls",
"vs": [
11000
],
"line": "/x --device=1 --level=RAID1 raid.1 raid.2 --level=RAID5",
"text": "raid /x --device=1 --level=RAID5 raid.1 raid.2\\n"
},
{
"cmd": "raid",
"cls": "F13_Raid.cls F13_RaidData.cls",
"vs": [
11000
],
"line": "/x --device=1 --level=RAID1 raid.1 raid.2 --level=5",
"text": "raid /x --device=1 --level=RAID5 raid.1 raid.2\\n"
},
{
"cmd": "raid",
"cls": "F13_Raid.cls F13_RaidData.cls",
"vs": [
11000
],
"line": "/x --device=1 --level=RAID1 raid.1 raid.2 --level=RAID6",
"text": "raid /x --device=1 --level=RAID6 raid.1 raid.2\\n"
},
{
"cmd": "raid",
"cls": "F13_Raid.cls F13_RaidData.cls",
"vs": [
11000
],
"line": "/x --device=1 --level=RAID1 raid.1 raid.2 --level=6",
"text": "raid /x --device=1 --level=RAID6 raid.1 raid.2\\n"
},
{
"cmd": "raid",
"cls": "F13_Raid.cls F13_RaidData.cls",
"vs": [
11000
],
"line": "/x --device=1 --level=RAID1 raid.1 raid.2 --level=RAID10",
"text": "raid /x --device=1 --level=RAID10 raid.1 raid.2\\n"
},
{
"cmd": "raid",
"cls": "F13_Raid.cls F13_RaidData.cls",
"vs": [
11000
],
"line": "/x --device=1 --level=RAID1 raid.1 raid.2 --level=10",
"text": "raid /x --device=1 --level=RAID10 raid.1 raid.2\\n"
},
{
"cmd": "raid",
"cls": "F13_Raid.cls F13_RaidData.cls",
"vs": [
11000
],
"line": "/x --device=1 --level=RAID1 raid.1 raid.2 --noformat",
"text": null
},
{
"cmd": "raid",
"cls": "F13_Raid.cls F13_RaidData.cls",
"vs": [
11000
],
"line": "/x --device=1 --level=RAID1 raid.1 raid.2 --spares=42",
"text": "raid /x --device=1 --level=RAID1 --spares=42 raid.1 raid.2\\n"
},
{
"cmd": "raid",
"cls": "F13_Raid.cls F13_RaidData.cls",
"vs": [
11000
],
"line": "/x --device=1 --level=RAID1 raid.1 raid.2 --useexisting",
"text": null
},
{
"cmd": "raid",
"cls": "F13_Raid.cls F13_RaidData.cls",
"vs": [
11000
],
"line": "/x --device=1 --level=RAID1 raid.1 raid.2 --fsoptions=QX",
"text": "raid /x --device=1 --level=RAID1 --fsoptions=\\\"QX\\\" raid.1 raid.2\\n"
},
{
"cmd": "raid",
"cls": "F13_Raid.cls F13_RaidData.cls",
"vs": [
11000
],
"line": "/x --device=1 --level=RAID1 raid.1 raid.2 --bytes-per-inode=QX",
"text": "raid /x --device=1 --level=RAID1 raid.1 raid.2\\n"
},
{
"cmd": "raid",
"cls": "F13_Raid.cls F13_RaidData.cls",
"vs": [
11000
],
"line": "/x --device=1 --level=RAID1 raid.1 raid.2 --fsprofile=QX",
"text": "raid /x --device=1 --level=RAID1 --fsprofile=\\\"QX\\\" raid.1 raid.2\\n"
},
{
"cmd": "raid",
"cls": "F13_Raid.cls F13_RaidData.cls",
"vs": [
11000
],
"line": "/x --device=1 --level=RAID1 raid.1 raid.2 --encrypted",
"text": "raid /x --device=1 --level=RAID1 --encrypted raid.1 raid.2\\n"
},
{
"cmd": "raid",
"cls": "F13_Raid.cls F13_RaidData.cls",
"vs": [
11000
],
"line": "/x --device=1 --level=RAID1 raid.1 raid.2 --passphrase=QX",
"text": "raid /x --device=1 --level=RAID1 raid.1 raid.2\\n"
},
{
"cmd": "raid",
"cls": "F13_Raid.cls F13_RaidData.cls",
"vs": [
11000
],
"line": "/x --device=1 --level=RAID1 raid.1 raid.2 --escrowcert=QX",
"text": "raid /x --device=1 --level=RAID1 raid.1 raid.2\\n"
},
{
"cmd": "raid",
"cls": "F13_Raid.cls F13_RaidData.cls",
"vs": [
11000
],
"line": "/x --device=1 --level=RAID1 raid.1 raid.2 --backuppassphrase",
"text": "raid /x --device=1 --level=RAID1 raid.1 raid.2\\n"
},
{
"cmd": "raid",
"cls": "F13_Raid.cls F13_RaidData.cls",
"vs": [
11000
],
"line": "/x --device=1 --level=RAID1 raid.1 raid.2 --level=RAID4",
"text": "raid /x --device=1 --level=RAID4 raid.1 raid.2\\n"
},
{
"cmd": "raid",
"cls": "F13_Raid.cls F13_RaidData.cls",
"vs": [
11000
],
"line": "/x --device=1 --level=RAID1 raid.1 raid.2 --level=4",
"text": "raid /x --device=1 --level=RAID4 raid.1 raid.2\\n"
},
{
"cmd": "raid",
"cls": "F13_Raid.cls F13_RaidData.cls",
"vs": [
11000
],
"line": "/x --device=1 --level=RAID1 raid.1 raid.2 --label=QX",
"text": null
},
{
"cmd": "raid",
"cls": "F13_Raid.cls F13_RaidData.cls",
"vs": [
11000
],
"line": "/x --device=1 --level=RAID1 raid.1 raid.2 --cipher=QX",
"text": null
},
{
"cmd": "raid",
"cls": "F13_Raid.cls F13_RaidData.cls",
"vs": [
11000
],
"line": "/x --device=1 --level=RAID1 raid.1 raid.2 --mkfsoptions=QX",
"text": null
},
{
"cmd": "raid",
"cls": "F13_Raid.cls F13_RaidData.cls",
"vs": [
11000
],
"line": "/x --device=1 --level=RAID1 raid.1 raid.2 --chunksize=42",
"text": null
},
{
"cmd": "raid",
"cls": "F13_Raid.cls F13_RaidData.cls",
"vs": [
11000
],
"line": "/x --device=1 --level=RAID1 raid.1 raid.2 --luks-version=QX",
"text": null
},
{
"cmd": "raid",
"cls": "F13_Raid.cls F13_RaidData.cls",
"vs": [
11000
],
"line": "/x --device=1 --level=RAID1 raid.1 raid.2 --pbkdf=QX",
"text": null
},
{
"cmd": "raid",
"cls": "F13_Raid.cls F13_RaidData.cls",
"vs": [
11000
],
"line": "/x --device=1 --level=RAID1 raid.1 raid.2 --pbkdf-memory=42",
"text": null
},
{
"cmd": "raid",
"cls": "F13_Raid.cls F13_RaidData.cls",
"vs": [
11000
],
"line": "/x --device=1 --level=RAID1 raid.1 raid.2 --pbkdf-time=42",
"text": null
},
{
"cmd": "raid",
"cls": "F13_Raid.cls F13_RaidData.cls",
"vs": [
11000
],
"line": "/x --device=1 --level=RAID1 raid.1 raid.2 --pbkdf-iterations=42",
"text": null
},
{
"cmd": "raid",
"cls": "F13_Raid.cls F13_RaidData.cls",
"vs": [
11000
],
"line": "/x --device=1 --level=RAID1 raid.1 raid.2 --bytes-per-inode=42",
"text": "raid /x --device=1 --level=RAID1 raid.1 raid.2\\n"
},
{
"cmd": "raid",
"cls": "F13_Raid.cls F13_RaidData.cls",
"vs": [
11000
],
"line": "/x --device=1 --level=RAID1 raid.1 raid.2 --encrypted --passphrase=QX",
"text": "raid /x --device=1 --level=RAID1 --encrypted --passphrase=\\\"QX\\\" raid.1 raid.2\\n"
},
{
"cmd": "raid",
"cls": "F13_Raid.cls F13_RaidData.cls",
"vs": [
11000
],
"line": "/x --device=1 --level=RAID1 raid.1 raid.2 --encrypted --escrowcert=QX",
"text": "raid /x --device=1 --level=RAID1 --encrypted --escrowcert=\\\"QX\\\" raid.1 raid.2\\n"
},
{
"cmd": "raid",
"cls": "F13_Raid.cls F13_RaidData.cls",
"vs": [
11000
],
"line": "/x --device=1 --level=RAID1 raid.1 raid.2 --encrypted --escrowcert=c --backuppassphrase",
"text": "raid /x --device=1 --level=RAID1 --encrypted --escrowcert=\\\"c\\\" --backuppassphrase raid.1 raid.2\\n"
},
{
"cmd": "raid",
"cls": "F13_Raid.cls F13_RaidData.cls",
"vs": [
11000
],
"line": "/x --device=1 --level=RAID1 raid.1 raid.2 --encrypted --cipher=QX",
"text": null
},
{
"cmd": "raid",
"cls": "F13_Raid.cls F13_RaidData.cls",
"vs": [
11000
],
"line": "/x --device=1 --level=RAID1 raid.1 raid.2 --encrypted --luks-version=QX",
"text": null
},
{
"cmd": "raid",
"cls": "F13_Raid.cls F13_RaidData.cls",
"vs": [
11000
],
"line": "/x --device=1 --level=RAID1 raid.1 raid.2 --encrypted --pbkdf=QX",
"text": null
},
{
"cmd": "raid",
"cls": "F13_Raid.cls F13_RaidData.cls",
"vs": [
11000
],
"line": "/x --device=1 --level=RAID1 raid.1 raid.2 --encrypted --pbkdf-memory=42",
"text": null
},
{
"cmd": "raid",
"cls": "F13_Raid.cls F13_RaidData.cls",
"vs": [
11000
],
"line": "/x --device=1 --level=RAID1 raid.1 raid.2 --encrypted --pbkdf-time=42",
"text": null
},
{
"cmd": "raid",
"cls": "F13_Raid.cls F13_RaidData.cls",
"vs": [
11000
],
"line": "/x --device=1 --level=RAID1 raid.1 raid.2 --encrypted --pbkdf-iterations=42",
"text": null
},
{
"cmd": "raid",
"cls": "F13_Raid.cls F13_RaidData.cls",
"vs": [
11000
],
"line": "/x --device=1 --level=RAID1 raid.1 raid.2 raid.3 --spares=1 --fstype=ext4 --fsoptions=o --fsprofile=f --encrypted",
"text": "raid /x --device=1 --fstype=\\\"ext4\\\" --level=RAID1 --spares=1 --fsoptions=\\\"o\\\" --fsprofile=\\\"f\\\" --encrypted raid.1 raid.2 raid.3\\n"
},
{
"cmd": "raid",
"cls": "F13_Raid.cls F13_RaidData.cls",
"vs": [
11000
],
"line": "/x --device=1 --noformat",
"text": "raid /x --device=1 --noformat --useexisting\\n"
},
{
"cmd": "raid",
"cls": "F13_Raid.cls F13_RaidData.cls",
"vs": [
11000
],
"line": "/x --device=1 --noformat --fstype=ext4",
"text": "raid /x --device=1 --fstype=\\\"ext4\\\" --noformat --useexisting\\n"
},
{
"cmd": "raid",
"cls": "F13_Raid.cls F13_RaidData.cls",
"vs": [
11000
],
"line": "/x --device=1 --noformat --label=QX",
"text": null
},
{
"cmd": "raid",
"cls": "F13_Raid.cls F13_RaidData.cls",
"vs": [
11000
],
"line": "/x --device=1 --useexisting",
"text": "raid /x --device=1 --useexisting\\n"
},
{
"cmd": "raid",
"cls": "F13_Raid.cls F13_RaidData.cls",
"vs": [
11000
],
"line": "/x --device=1 --useexisting --fstype=ext4",
"text": "raid /x --device=1 --fstype=\\\"ext4\\\" --useexisting\\n"
},
{
"cmd": "raid",
"cls": "F13_Raid.cls F13_RaidData.cls",
"vs": [
11000
],
"line": "/x --device=1 --useexisting --label=QX",
"text": null
},
{
"cmd": "raid",
"cls": "F13_Raid.cls F13_RaidData.cls",
"vs": [
11000
],
"line": "/x --device=1 --level=RAID1 raid.1 raid.2 raid.3",
"text": "raid /x --device=1 --level=RAID1 raid.1 raid.2 raid.3\\n"
},
{
"cmd": "raid",
"cls": "F13_Raid.cls F13_RaidData.cls",
"vs": [
11000
],
"line": "/x --device=1 --level=RAID1 raid.1 raid.2 raid.3 --device=md7",
"text": "raid /x --device=7 --level=RAID1 raid.1 raid.2 raid.3\\n"
},
{
"cmd": "raid",
"cls": "F13_Raid.cls F13_RaidData.cls",
"vs": [
11000
],
"line": "/x --device=1 --level=RAID1 raid.1 raid.2 raid.3 --device=data",
"text": null
},
{
"cmd": "raid",
"cls": "F13_Raid.cls F13_RaidData.cls",
"vs": [
11000
],
"line": "/x --device=1 --level=RAID1 raid.1 raid.2 raid.3 --level=0",
"text": "raid /x --device=1 --level=RAID0 raid.1 raid.2 raid.3\\n"
},
{
"cmd": "raid",
"cls": "F13_Raid.cls F13_RaidData.cls",
"vs": [
11000
],
"line": "/x --device=1 --level=RAID1 raid.1 raid.2 raid.3 --level=RAID5",
"text": "raid /x --device=1 --level=RAID5 raid.1 raid.2 raid.3\\n"
},
{
"cmd": "raid",
"cls": "F13_Raid.cls F13_RaidData.cls",
"vs": [
11000
],
"line": "/x --device=1 --level=RAID1 raid.1 raid.2 raid.3 --level=raid6",
"text": "raid /x --device=1 --level=RAID6 raid.1 raid.2 raid.3\\n"
},
{
"cmd": "raid",
"cls": "F13_Raid.cls F13_RaidData.cls",
"vs": [
11000
],
"line": "/x --device=1 --level=RAID1 raid.1 raid.2 raid.3 --level=10",
"text": "raid /x --device=1 --level=RAID10 raid.1 raid.2 raid.3\\n"
},
{
"cmd": "raid",
"cls": "F13_Raid.cls F13_RaidData.cls",
"vs": [
11000
],
"line": "/x --device=1 --level=RAID1 raid.1 raid.2 raid.3 --level=linear",
"text": null
},
{
"cmd": "raid",
"cls": "F13_Raid.cls F13_RaidData.cls",
"vs": [
11000
],
"line": "/x --device=1 --level=RAID1 raid.1 raid.2 raid.3 --spares=1",
"text": "raid /x --device=1 --level=RAID1 --spares=1 raid.1 raid.2 raid.3\\n"
},
{
"cmd": "raid",
"cls": "F13_Raid.cls F13_RaidData.cls",
"vs": [
11000
],
"line": "/x --device=1 --level=RAID1 raid.1 raid.2 raid.3 --spares=2",
"text": "raid /x --device=1 --level=RAID1 --spares=2 raid.1 raid.2 raid.3\\n"
},
{
"cmd": "firewall",
"cls": "F14_Firewall.cls",
"vs": [
12000,
13000,
14000,
15000,
16000,
17000
],
"line": "",
"text": "# Firewall configuration\\nfirewall --enabled\\n"
},
{
"cmd": "firewall",
"cls": "F14_Firewall.cls",
"vs": [
12000,
13000,
14000,
15000,
16000,
17000
],
"line": "--disable",
"text": "# Firewall configuration\\nfirewall --disabled\\n"
},
{
"cmd": "firewall",
"cls": "F14_Firewall.cls",
"vs": [
12000,
13000,
14000,
15000,
16000,
17000
],
"line": "--disabled",
"text": "# Firewall configuration\\nfirewall --disabled\\n"
},
{
"cmd": "firewall",
"cls": "F14_Firewall.cls",
"vs": [
12000,
13000,
14000,
15000,
16000,
17000
],
"line": "--enable",
"text": "# Firewall configuration\\nfirewall --enabled\\n"
},
{
"cmd": "firewall",
"cls": "F14_Firewall.cls",
"vs": [
12000,
13000,
14000,
15000,
16000,
17000
],
"line": "--enabled",
"text": "# Firewall configuration\\nfirewall --enabled\\n"
},
{
"cmd": "firewall",
"cls": "F14_Firewall.cls",
"vs": [
12000,
13000,
14000,
15000,
16000,
17000
],
"line": "--port=QX:tcp",
"text": "# Firewall configuration\\nfirewall --enabled --port=QX:tcp\\n"
},
{
"cmd": "firewall",
"cls": "F14_Firewall.cls",
"vs": [
12000,
13000,
14000,
15000,
16000,
17000
],
"line": "--trust=QX",
"text": "# Firewall configuration\\nfirewall --enabled --trust=QX\\n"
},
{
"cmd": "firewall",
"cls": "F14_Firewall.cls",
"vs": [
12000,
13000,
14000,
15000,
16000,
17000
],
"line": "--service=QX",
"text": "# Firewall configuration\\nfirewall --enabled --service=QX\\n"
},
{
"cmd": "firewall",
"cls": "F14_Firewall.cls",
"vs": [
12000,
13000,
14000,
15000,
16000,
17000
],
"line": "--ftp",
"text": "# Firewall configuration\\nfirewall --enabled --service=ftp\\n"
},
{
"cmd": "firewall",
"cls": "F14_Firewall.cls",
"vs": [
12000,
13000,
14000,
15000,
16000,
17000
],
"line": "--http",
"text": "# Firewall configuration\\nfirewall --enabled --service=http\\n"
},
{
"cmd": "firewall",
"cls": "F14_Firewall.cls",
"vs": [
12000,
13000,
14000,
15000,
16000,
17000
],
"line": "--smtp",
"text": "# Firewall configuration\\nfirewall --enabled --service=smtp\\n"
},
{
"cmd": "firewall",
"cls": "F14_Firewall.cls",
"vs": [
12000,
13000,
14000,
15000,
16000,
17000
],
"line": "--ssh",
"text": "# Firewall configuration\\nfirewall --enabled --service=ssh\\n"
},
{
"cmd": "firewall",
"cls": "F14_Firewall.cls",
"vs": [
12000,
13000,
14000,
15000,
16000,
17000
],
"line": "--telnet=QX",
"text": null
},
{
"cmd": "firewall",
"cls": "F14_Firewall.cls",
"vs": [
12000,
13000,
14000,
15000,
16000,
17000
],
"line": "--remove-service=QX",
"text": null
},
{
"cmd": "firewall",
"cls": "F14_Firewall.cls",
"vs": [
12000,
13000,
14000,
15000,
16000,
17000
],
"line": "--use-system-defaults",
"text": null
},
{
"cmd": "firewall",
"cls": "F14_Firewall.cls",
"vs": [
12000,
13000,
14000,
15000,
16000,
17000
],
"line": "--telnet",
"text": null
},
{
"cmd": "firewall",
"cls": "F14_Firewall.cls",
"vs": [
12000,
13000,
14000,
15000,
16000,
17000
],
"line": "--high=QX",
"text": null
},
{
"cmd": "firewall",
"cls": "F14_Firewall.cls",
"vs": [
12000,
13000,
14000,
15000,
16000,
17000
],
"line": "--medium=QX",
"text": null
},
{
"cmd": "firewall",
"cls": "F14_Firewall.cls",
"vs": [
12000,
13000,
14000,
15000,
16000,
17000
],
"line": "--port=ssh:tcp,telnet:tcp,smtp:tcp,http:tcp,ftp:tcp,imap:udp,99",
"text": "# Firewall configuration\\nfirewall --enabled --ssh --telnet --smtp --http --ftp --port=imap:udp,99:tcp\\n"
},
{
"cmd": "firewall",
"cls": "F14_Firewall.cls",
"vs": [
12000,
13000,
14000,
15000,
16000,
17000
],
"line": "--ssh --port=1:udp --trust=a --trust=b",
"text": "# Firewall configuration\\nfirewall --enabled --port=1:udp --trust=a,b --service=ssh\\n"
},
{
"cmd": "firewall",
"cls": "F14_Firewall.cls",
"vs": [
12000,
13000,
14000,
15000,
16000,
17000
],
"line": "--disabled --ssh",
"text": "# Firewall configuration\\nfirewall --disabled\\n"
},
{
"cmd": "firewall",
"cls": "F14_Firewall.cls",
"vs": [
12000,
13000,
14000,
15000,
16000,
17000
],
"line": "--service=a,b --remove-service=c,d --trust=t --port=5",
"text": null
},
{
"cmd": "raid",
"cls": "F14_Raid.cls F14_RaidData.cls",
"vs": [
12000
],
"line": "/x --device=1 --level=RAID1 raid.1 raid.2",
"text": "raid /x --device=1 --level=RAID1 raid.1 raid.2\\n"
},
{
"cmd": "raid",
"cls": "F14_Raid.cls F14_RaidData.cls",
"vs": [
12000
],
"line": "/x --device=1 --level=RAID1 raid.1 raid.2 --device=QX",
"text": null
},
{
"cmd": "raid",
"cls": "F14_Raid.cls F14_RaidData.cls",
"vs": [
12000
],
"line": "/x --device=1 --level=RAID1 raid.1 raid.2 --fstype=QX",
"text": "raid /x --device=1 --fstype=\\\"QX\\\" --level=RAID1 raid.1 raid.2\\n"
},
{
"cmd": "raid",
"cls": "F14_Raid.cls F14_RaidData.cls",
"vs": [
12000
],
"line": "/x --device=1 --level=RAID1 raid.1 raid.2 --level=RAID0",
"text": "raid /x --device=1 --level=RAID0 raid.1 raid.2\\n"
},
{
"cmd": "raid",
"cls": "F14_Raid.cls F14_RaidData.cls",
"vs": [
12000
],
"line": "/x --device=1 --level=RAID1 raid.1 raid.2 --level=0",
"text": "raid /x --device=1 --level=RAID0 raid.1 raid.2\\n"
},
{
"cmd": "raid",
"cls": "F14_Raid.cls F14_RaidData.cls",
"vs": [
12000
],
"line": "/x --device=1 --level=RAID1 raid.1 raid.2 --level=RAID1",
"text": "raid /x --device=1 --level=RAID1 raid.1 raid.2\\n"
},
{
"cmd": "raid",
"cls": "F14_Raid.cls F14_RaidData.cls",
"vs": [
12000
],
"line": "/x --device=1 --level=RAID1 raid.1 raid.2 --level=1",
"text": "raid /x --device=1 --level=RAID1 raid.1 raid.2\\n"
},
{
"cmd": "raid",
"cls": "F14_Raid.cls F14_RaidData.cls",
"vs": [
12000
],
"line": "/x --device=1 --level=RAID1 raid.1 raid.2 --level=RAID5",
"text": "raid /x --device=1 --level=RAID5 raid.1 raid.2\\n"
},
{
"cmd": "raid",
"cls": "F14_Raid.cls F14_RaidData.cls",
"vs": [
12000
],
"line": "/x --device=1 --level=RAID1 raid.1 raid.2 --level=5",
"text": "raid /x --device=1 --level=RAID5 raid.1 raid.2\\n"
},
{
"cmd": "raid",
"cls": "F14_Raid.cls F14_RaidData.cls",
"vs": [
12000
],
"line": "/x --device=1 --level=RAID1 raid.1 raid.2 --level=RAID6",
"text": "raid /x --device=1 --level=RAID6 raid.1 raid.2\\n"
},
{
"cmd": "raid",
"cls": "F14_Raid.cls F14_RaidData.cls",
"vs": [
12000
],
"line": "/x --device=1 --level=RAID1 raid.1 raid.2 --level=6",
"text": "raid /x --device=1 --level=RAID6 raid.1 raid.2\\n"
},
{
"cmd": "raid",
"cls": "F14_Raid.cls F14_RaidData.cls",
"vs": [
12000
],
"line": "/x --device=1 --level=RAID1 raid.1 raid.2 --level=RAID10",
"text": "raid /x --device=1 --level=RAID10 raid.1 raid.2\\n"
},
{
"cmd": "raid",
"cls": "F14_Raid.cls F14_RaidData.cls",
"vs": [
12000
],
"line": "/x --device=1 --level=RAID1 raid.1 raid.2 --level=10",
"text": "raid /x --device=1 --level=RAID10 raid.1 raid.2\\n"
},
{
"cmd": "raid",
"cls": "F14_Raid.cls F14_RaidData.cls",
"vs": [
12000
],
"line": "/x --device=1 --level=RAID1 raid.1 raid.2 --noformat",
"text": null
},
{
"cmd": "raid",
"cls": "F14_Raid.cls F14_RaidData.cls",
"vs": [
12000
],
"line": "/x --device=1 --level=RAID1 raid.1 raid.2 --spares=42",
"text": "raid /x --device=1 --level=RAID1 --spares=42 raid.1 raid.2\\n"
},
{
"cmd": "raid",
"cls": "F14_Raid.cls F14_RaidData.cls",
"vs": [
12000
],
"line": "/x --device=1 --level=RAID1 raid.1 raid.2 --useexisting",
"text": null
},
{
"cmd": "raid",
"cls": "F14_Raid.cls F14_RaidData.cls",
"vs": [
12000
],
"line": "/x --device=1 --level=RAID1 raid.1 raid.2 --fsoptions=QX",
"text": "raid /x --device=1 --level=RAID1 --fsoptions=\\\"QX\\\" raid.1 raid.2\\n"
},
{
"cmd": "raid",
"cls": "F14_Raid.cls F14_RaidData.cls",
"vs": [
12000
],
"line": "/x --device=1 --level=RAID1 raid.1 raid.2 --bytes-per-inode=QX",
"text": null
},
{
"cmd": "raid",
"cls": "F14_Raid.cls F14_RaidData.cls",
"vs": [
12000
],
"line": "/x --device=1 --level=RAID1 raid.1 raid.2 --fsprofile=QX",
"text": "raid /x --device=1 --level=RAID1 --fsprofile=\\\"QX\\\" raid.1 raid.2\\n"
},
{
"cmd": "raid",
"cls": "F14_Raid.cls F14_RaidData.cls",
"vs": [
12000
],
"line": "/x --device=1 --level=RAID1 raid.1 raid.2 --encrypted",
"text": "raid /x --device=1 --level=RAID1 --encrypted raid.1 raid.2\\n"
},
{
"cmd": "raid",
"cls": "F14_Raid.cls F14_RaidData.cls",
"vs": [
12000
],
"line": "/x --device=1 --level=RAID1 raid.1 raid.2 --passphrase=QX",
"text": "raid /x --device=1 --level=RAID1 raid.1 raid.2\\n"
},
{
"cmd": "raid",
"cls": "F14_Raid.cls F14_RaidData.cls",
"vs": [
12000
],
"line": "/x --device=1 --level=RAID1 raid.1 raid.2 --escrowcert=QX",
"text": "raid /x --device=1 --level=RAID1 raid.1 raid.2\\n"
},
{
"cmd": "raid",
"cls": "F14_Raid.cls F14_RaidData.cls",
"vs": [
12000
],
"line": "/x --device=1 --level=RAID1 raid.1 raid.2 --backuppassphrase",
"text": "raid /x --device=1 --level=RAID1 raid.1 raid.2\\n"
},
{
"cmd": "raid",
"cls": "F14_Raid.cls F14_RaidData.cls",
"vs": [
12000
],
"line": "/x --device=1 --level=RAID1 raid.1 raid.2 --level=RAID4",
"text": "raid /x --device=1 --level=RAID4 raid.1 raid.2\\n"
},
{
"cmd": "raid",
"cls": "F14_Raid.cls F14_RaidData.cls",
"vs": [
12000
],
"line": "/x --device=1 --level=RAID1 raid.1 raid.2 --level=4",
"text": "raid /x --device=1 --level=RAID4 raid.1 raid.2\\n"
},
{
"cmd": "raid",
"cls": "F14_Raid.cls F14_RaidData.cls",
"vs": [
12000
],
"line": "/x --device=1 --level=RAID1 raid.1 raid.2 --label=QX",
"text": null
},
{
"cmd": "raid",
"cls": "F14_Raid.cls F14_RaidData.cls",
"vs": [
12000
],
"line": "/x --device=1 --level=RAID1 raid.1 raid.2 --cipher=QX",
"text": null
},
{
"cmd": "raid",
"cls": "F14_Raid.cls F14_RaidData.cls",
"vs": [
12000
],
"line": "/x --device=1 --level=RAID1 raid.1 raid.2 --mkfsoptions=QX",
"text": null
},
{
"cmd": "raid",
"cls": "F14_Raid.cls F14_RaidData.cls",
"vs": [
12000
],
"line": "/x --device=1 --level=RAID1 raid.1 raid.2 --chunksize=42",
"text": null
},
{
"cmd": "raid",
"cls": "F14_Raid.cls F14_RaidData.cls",
"vs": [
12000
],
"line": "/x --device=1 --level=RAID1 raid.1 raid.2 --luks-version=QX",
"text": null
},
{
"cmd": "raid",
"cls": "F14_Raid.cls F14_RaidData.cls",
"vs": [
12000
],
"line": "/x --device=1 --level=RAID1 raid.1 raid.2 --pbkdf=QX",
"text": null
},
{
"cmd": "raid",
"cls": "F14_Raid.cls F14_RaidData.cls",
"vs": [
12000
],
"line": "/x --device=1 --level=RAID1 raid.1 raid.2 --pbkdf-memory=42",
"text": null
},
{
"cmd": "raid",
"cls": "F14_Raid.cls F14_RaidData.cls",
"vs": [
12000
],
"line": "/x --device=1 --level=RAID1 raid.1 raid.2 --pbkdf-time=42",
"text": null
},
{
"cmd": "raid",
"cls": "F14_Raid.cls F14_RaidData.cls",
"vs": [
12000
],
"line": "/x --device=1 --level=RAID1 raid.1 raid.2 --pbkdf-iterations=42",
"text": null
},
{
"cmd": "raid",
"cls": "F14_Raid.cls F14_RaidData.cls",
"vs": [
12000
],
"line": "/x --device=1 --level=RAID1 raid.1 raid.2 --bytes-per-inode=42",
"text": null
},
{
"cmd": "raid",
"cls": "F14_Raid.cls F14_RaidData.cls",
"vs": [
12000
],
"line": "/x --device=1 --level=RAID1 raid.1 raid.2 --encrypted --passphrase=QX",
"text": "raid /x --device=1 --level=RAID1 --encrypted --passphrase=\\\"QX\\\" raid.1 raid.2\\n"
},
{
"cmd": "raid",
"cls": "F14_Raid.cls F14_RaidData.cls",
"vs": [
12000
],
"line": "/x --device=1 --level=RAID1 raid.1 raid.2 --encrypted --escrowcert=QX",
"text": "raid /x --device=1 --level=RAID1 --encrypted --escrowcert=\\\"QX\\\" raid.1 raid.2\\n"
},
{
"cmd": "raid",
"cls": "F14_Raid.cls F14_RaidData.cls",
"vs": [
12000
],
"line": "/x --device=1 --level=RAID1 raid.1 raid.2 --encrypted --escrowcert=c --backuppassphrase",
"text": "raid /x --device=1 --level=RAID1 --encrypted --escrowcert=\\\"c\\\" --backuppassphrase raid.1 raid.2\\n"
},
{
"cmd": "raid",
"cls": "F14_Raid.cls F14_RaidData.cls",
"vs": [
12000
],
"line": "/x --device=1 --level=RAID1 raid.1 raid.2 --encrypted --cipher=QX",
"text": null
},
{
"cmd": "raid",
"cls": "F14_Raid.cls F14_RaidData.cls",
"vs": [
12000
],
"line": "/x --device=1 --level=RAID1 raid.1 raid.2 --encrypted --luks-version=QX",
"text": null
},
{
"cmd": "raid",
"cls": "F14_Raid.cls F14_RaidData.cls",
"vs": [
12000
],
"line": "/x --device=1 --level=RAID1 raid.1 raid.2 --encrypted --pbkdf=QX",
"text": null
},
{
"cmd": "raid",
"cls": "F14_Raid.cls F14_RaidData.cls",
"vs": [
12000
],
"line": "/x --device=1 --level=RAID1 raid.1 raid.2 --encrypted --pbkdf-memory=42",
"text": null
},
{
"cmd": "raid",
"cls": "F14_Raid.cls F14_RaidData.cls",
"vs": [
12000
],
"line": "/x --device=1 --level=RAID1 raid.1 raid.2 --encrypted --pbkdf-time=42",
"text": null
},
{
"cmd": "raid",
"cls": "F14_Raid.cls F14_RaidData.cls",
"vs": [
12000
],
"line": "/x --device=1 --level=RAID1 raid.1 raid.2 --encrypted --pbkdf-iterations=42",
"text": null
},
{
"cmd": "raid",
"cls": "F14_Raid.cls F14_RaidData.cls",
"vs": [
12000
],
"line": "/x --device=1 --level=RAID1 raid.1 raid.2 raid.3 --spares=1 --fstype=ext4 --fsoptions=o --fsprofile=f --encrypted",
"text": "raid /x --device=1 --fstype=\\\"ext4\\\" --level=RAID1 --spares=1 --fsoptions=\\\"o\\\" --fsprofile=\\\"f\\\" --encrypted raid.1 raid.2 raid.3\\n"
},
{
"cmd": "raid",
"cls": "F14_Raid.cls F14_RaidData.cls",
"vs": [
12000
],
"line": "/x --device=1 --noformat",
"text": "raid /x --device=1 --noformat --useexisting\\n"
},
{
"cmd": "raid",
"cls": "F14_Raid.cls F14_RaidData.cls",
"vs": [
12000
],
"line": "/x --device=1 --noformat --fstype=ext4",
"text": "raid /x --device=1 --fstype=\\\"ext4\\\" --noformat --useexisting\\n"
},
{
"cmd": "raid",
"cls": "F14_Raid.cls F14_RaidData.cls",
"vs": [
12000
],
"line": "/x --device=1 --noformat --label=QX",
"text": null
},
{
"cmd": "raid",
"cls": "F14_Raid.cls F14_RaidData.cls",
"vs": [
12000
],
"line": "/x --device=1 --useexisting",
"text": "raid /x --device=1 --useexisting\\n"
},
{
"cmd": "raid",
"cls": "F14_Raid.cls F14_RaidData.cls",
"vs": [
12000
],
"line": "/x --device=1 --useexisting --fstype=ext4",
"text": "raid /x --device=1 --fstype=\\\"ext4\\\" --useexisting\\n"
},
{
"cmd": "raid",
"cls": "F14_Raid.cls F14_RaidData.cls",
"vs": [
12000
],
"line": "/x --device=1 --useexisting --label=QX",
"text": null
},
{
"cmd": "raid",
"cls": "F14_Raid.cls F14_RaidData.cls",
"vs": [
12000
],
"line": "/x --device=1 --level=RAID1 raid.1 raid.2 raid.3",
"text": "raid /x --device=1 --level=RAID1 raid.1 raid.2 raid.3\\n"
},
{
"cmd": "raid",
"cls": "F14_Raid.cls F14_RaidData.cls",
"vs": [
12000
],
"line": "/x --device=1 --level=RAID1 raid.1 raid.2 raid.3 --device=md7",
"text": "raid /x --device=7 --level=RAID1 raid.1 raid.2 raid.3\\n"
},
{
"cmd": "raid",
"cls": "F14_Raid.cls F14_RaidData.cls",
"vs": [
12000
],
"line": "/x --device=1 --level=RAID1 raid.1 raid.2 raid.3 --device=data",
"text": null
},
{
"cmd": "raid",
"cls": "F14_Raid.cls F14_RaidData.cls",
"vs": [
12000
],
"line": "/x --device=1 --level=RAID1 raid.1 raid.2 raid.3 --level=0",
"text": "raid /x --device=1 --level=RAID0 raid.1 raid.2 raid.3\\n"
},
{
"cmd": "raid",
"cls": "F14_Raid.cls F14_RaidData.cls",
"vs": [
12000
],
"line": "/x --device=1 --level=RAID1 raid.1 raid.2 raid.3 --level=RAID5",
"text": "raid /x --device=1 --level=RAID5 raid.1 raid.2 raid.3\\n"
},
{
"cmd": "raid",
"cls": "F14_Raid.cls F14_RaidData.cls",
"vs": [
12000
],
"line": "/x --device=1 --level=RAID1 raid.1 raid.2 raid.3 --level=raid6",
"text": "raid /x --device=1 --level=RAID6 raid.1 raid.2 raid.3\\n"
},
{
"cmd": "raid",
"cls": "F14_Raid.cls F14_RaidData.cls",
"vs": [
12000
],
"line": "/x --device=1 --level=RAID1 raid.1 raid.2 raid.3 --level=10",
"text": "raid /x --device=1 --level=RAID10 raid.1 raid.2 raid.3\\n"
},
{
"cmd": "raid",
"cls": "F14_Raid.cls F14_RaidData.cls",
"vs": [
12000
],
"line": "/x --device=1 --level=RAID1 raid.1 raid.2 raid.3 --level=linear",
"text": null
},
{
"cmd": "raid",
"cls": "F14_Raid.cls F14_RaidData.cls",
"vs": [
12000
],
"line": "/x --device=1 --level=RAID1 raid.1 raid.2 raid.3 --spares=1",
"text": "raid /x --device=1 --level=RAID1 --spares=1 raid.1 raid.2 raid.3\\n"
},
{
"cmd": "raid",
"cls": "F14_Raid.cls F14_RaidData.cls",
"vs": [
12000
],
"line": "/x --device=1 --level=RAID1 raid.1 raid.2 raid.3 --spares=2",
"text": "raid /x --device=1 --level=RAID1 --spares=2 raid.1 raid.2 raid.3\\n"
},
{
"cmd": "raid",
"cls": "F15_Raid.cls F15_RaidData.cls",
"vs": [
13000,
14000,
15000
],
"line": "/x --device=1 --level=RAID1 raid.1 raid.2",
"text": "raid /x --device=1 --level=RAID1 raid.1 raid.2\\n"
},
{
"cmd": "raid",
"cls": "F15_Raid.cls F15_RaidData.cls",
"vs": [
13000,
14000,
15000
],
"line": "/x --device=1 --level=RAID1 raid.1 raid.2 --device=QX",
"text": null
},
{
"cmd": "raid",
"cls": "F15_Raid.cls F15_RaidData.cls",
"vs": [
13000,
14000,
15000
],
"line": "/x --device=1 --level=RAID1 raid.1 raid.2 --fstype=QX",
"text": "raid /x --device=1 --fstype=\\\"QX\\\" --level=RAID1 raid.1 raid.2\\n"
},
{
"cmd": "raid",
"cls": "F15_Raid.cls F15_RaidData.cls",
"vs": [
13000,
14000,
15000
],
"line": "/x --device=1 --level=RAID1 raid.1 raid.2 --level=RAID0",
"text": "raid /x --device=1 --level=RAID0 raid.1 raid.2\\n"
},
{
"cmd": "raid",
"cls": "F15_Raid.cls F15_RaidData.cls",
"vs": [
13000,
14000,
15000
],
"line": "/x --device=1 --level=RAID1 raid.1 raid.2 --level=0",
"text": "raid /x --device=1 --level=RAID0 raid.1 raid.2\\n"
},
{
"cmd": "raid",
"cls": "F15_Raid.cls F15_RaidData.cls",
"vs": [
13000,
14000,
15000
],
"line": "/x --device=1 --level=RAID1 raid.1 raid.2 --level=RAID1",
"text": "raid /x --device=1 --level=RAID1 raid.1 raid.2\\n"
},
{
"cmd": "raid",
"cls": "F15_Raid.cls F15_RaidData.cls",
"vs": [
13000,
14000,
15000
],
"line": "/x --device=1 --level=RAID1 raid.1 raid.2 --level=1",
"text": "raid /x --device=1 --level=RAID1 raid.1 raid.2\\n"
},
{
"cmd": "raid",
"cls": "F15_Raid.cls F15_RaidData.cls",
"vs": [
13000,
14000,
15000
],
"line": "/x --device=1 --level=RAID1 raid.1 raid.2 --level=RAID5",
"text": "raid /x --device=1 --level=RAID5 raid.1 raid.2\\n"
},
{
"cmd": "raid",
"cls": "F15_Raid.cls F15_RaidData.cls",
"vs": [
13000,
14000,
15000
],
"line": "/x --device=1 --level=RAID1 raid.1 raid.2 --level=5",
"text": "raid /x --device=1 --level=RAID5 raid.1 raid.2\\n"
},
{
"cmd": "raid",
"cls": "F15_Raid.cls F15_RaidData.cls",
"vs": [
13000,
14000,
15000
],
"line": "/x --device=1 --level=RAID1 raid.1 raid.2 --level=RAID6",
"text": "raid /x --device=1 --level=RAID6 raid.1 raid.2\\n"
},
{
"cmd": "raid",
"cls": "F15_Raid.cls F15_RaidData.cls",
"vs": [
13000,
14000,
15000
],
"line": "/x --device=1 --level=RAID1 raid.1 raid.2 --level=6",
"text": "raid /x --device=1 --level=RAID6 raid.1 raid.2\\n"
},
{
"cmd": "raid",
"cls": "F15_Raid.cls F15_RaidData.cls",
"vs": [
13000,
14000,
15000
],
"line": "/x --device=1 --level=RAID1 raid.1 raid.2 --level=RAID10",
"text": "raid /x --device=1 --level=RAID10 raid.1 raid.2\\n"
},
{
"cmd": "raid",
"cls": "F15_Raid.cls F15_RaidData.cls",
"vs": [
13000,
14000,
15000
],
"line": "/x --device=1 --level=RAID1 raid.1 raid.2 --level=10",
"text": "raid /x --device=1 --level=RAID10 raid.1 raid.2\\n"
},
{
"cmd": "raid",
"cls": "F15_Raid.cls F15_RaidData.cls",
"vs": [
13000,
14000,
15000
],
"line": "/x --device=1 --level=RAID1 raid.1 raid.2 --noformat",
"text": null
},
{
"cmd": "raid",
"cls": "F15_Raid.cls F15_RaidData.cls",
"vs": [
13000,
14000,
15000
],
"line": "/x --device=1 --level=RAID1 raid.1 raid.2 --spares=42",
"text": "raid /x --device=1 --level=RAID1 --spares=42 raid.1 raid.2\\n"
},
{
"cmd": "raid",
"cls": "F15_Raid.cls F15_RaidData.cls",
"vs": [
13000,
14000,
15000
],
"line": "/x --device=1 --level=RAID1 raid.1 raid.2 --useexisting",
"text": null
},
{
"cmd": "raid",
"cls": "F15_Raid.cls F15_RaidData.cls",
"vs": [
13000,
14000,
15000
],
"line": "/x --device=1 --level=RAID1 raid.1 raid.2 --fsoptions=QX",
"text": "raid /x --device=1 --level=RAID1 --fsoptions=\\\"QX\\\" raid.1 raid.2\\n"
},
{
"cmd": "raid",
"cls": "F15_Raid.cls F15_RaidData.cls",
"vs": [
13000,
14000,
15000
],
"line": "/x --device=1 --level=RAID1 raid.1 raid.2 --bytes-per-inode=QX",
"text": null
},
{
"cmd": "raid",
"cls": "F15_Raid.cls F15_RaidData.cls",
"vs": [
13000,
14000,
15000
],
"line": "/x --device=1 --level=RAID1 raid.1 raid.2 --fsprofile=QX",
"text": "raid /x --device=1 --level=RAID1 --fsprofile=\\\"QX\\\" raid.1 raid.2\\n"
},
{
"cmd": "raid",
"cls": "F15_Raid.cls F15_RaidData.cls",
"vs": [
13000,
14000,
15000
],
"line": "/x --device=1 --level=RAID1 raid.1 raid.2 --encrypted",
"text": "raid /x --device=1 --level=RAID1 --encrypted raid.1 raid.2\\n"
},
{
"cmd": "raid",
"cls": "F15_Raid.cls F15_RaidData.cls",
"vs": [
13000,
14000,
15000
],
"line": "/x --device=1 --level=RAID1 raid.1 raid.2 --passphrase=QX",
"text": "raid /x --device=1 --level=RAID1 raid.1 raid.2\\n"
},
{
"cmd": "raid",
"cls": "F15_Raid.cls F15_RaidData.cls",
"vs": [
13000,
14000,
15000
],
"line": "/x --device=1 --level=RAID1 raid.1 raid.2 --escrowcert=QX",
"text": "raid /x --device=1 --level=RAID1 raid.1 raid.2\\n"
},
{
"cmd": "raid",
"cls": "F15_Raid.cls F15_RaidData.cls",
"vs": [
13000,
14000,
15000
],
"line": "/x --device=1 --level=RAID1 raid.1 raid.2 --backuppassphrase",
"text": "raid /x --device=1 --level=RAID1 raid.1 raid.2\\n"
},
{
"cmd": "raid",
"cls": "F15_Raid.cls F15_RaidData.cls",
"vs": [
13000,
14000,
15000
],
"line": "/x --device=1 --level=RAID1 raid.1 raid.2 --level=RAID4",
"text": "raid /x --device=1 --level=RAID4 raid.1 raid.2\\n"
},
{
"cmd": "raid",
"cls": "F15_Raid.cls F15_RaidData.cls",
"vs": [
13000,
14000,
15000
],
"line": "/x --device=1 --level=RAID1 raid.1 raid.2 --level=4",
"text": "raid /x --device=1 --level=RAID4 raid.1 raid.2\\n"
},
{
"cmd": "raid",
"cls": "F15_Raid.cls F15_RaidData.cls",
"vs": [
13000,
14000,
15000
],
"line": "/x --device=1 --level=RAID1 raid.1 raid.2 --label=QX",
"text": "raid /x --device=1 --level=RAID1 --label=QX raid.1 raid.2\\n"
},
{
"cmd": "raid",
"cls": "F15_Raid.cls F15_RaidData.cls",
"vs": [
13000,
14000,
15000
],
"line": "/x --device=1 --level=RAID1 raid.1 raid.2 --cipher=QX",
"text": null
},
{
"cmd": "raid",
"cls": "F15_Raid.cls F15_RaidData.cls",
"vs": [
13000,
14000,
15000
],
"line": "/x --device=1 --level=RAID1 raid.1 raid.2 --mkfsoptions=QX",
"text": null
},
{
"cmd": "raid",
"cls": "F15_Raid.cls F15_RaidData.cls",
"vs": [
13000,
14000,
15000
],
"line": "/x --device=1 --level=RAID1 raid.1 raid.2 --chunksize=42",
"text": null
},
{
"cmd": "raid",
"cls": "F15_Raid.cls F15_RaidData.cls",
"vs": [
13000,
14000,
15000
],
"line": "/x --device=1 --level=RAID1 raid.1 raid.2 --luks-version=QX",
"text": null
},
{
"cmd": "raid",
"cls": "F15_Raid.cls F15_RaidData.cls",
"vs": [
13000,
14000,
15000
],
"line": "/x --device=1 --level=RAID1 raid.1 raid.2 --pbkdf=QX",
"text": null
},
{
"cmd": "raid",
"cls": "F15_Raid.cls F15_RaidData.cls",
"vs": [
13000,
14000,
15000
],
"line": "/x --device=1 --level=RAID1 raid.1 raid.2 --pbkdf-memory=42",
"text": null
},
{
"cmd": "raid",
"cls": "F15_Raid.cls F15_RaidData.cls",
"vs": [
13000,
14000,
15000
],
"line": "/x --device=1 --level=RAID1 raid.1 raid.2 --pbkdf-time=42",
"text": null
},
{
"cmd": "raid",
"cls": "F15_Raid.cls F15_RaidData.cls",
"vs": [
13000,
14000,
15000
],
"line": "/x --device=1 --level=RAID1 raid.1 raid.2 --pbkdf-iterations=42",
"text": null
},
{
"cmd": "raid",
"cls": "F15_Raid.cls F15_RaidData.cls",
"vs": [
13000,
14000,
15000
],
"line": "/x --device=1 --level=RAID1 raid.1 raid.2 --bytes-per-inode=42",
"text": null
},
{
"cmd": "raid",
"cls": "F15_Raid.cls F15_RaidData.cls",
"vs": [
13000,
14000,
15000
],
"line": "/x --device=1 --level=RAID1 raid.1 raid.2 --encrypted --passphrase=QX",
"text": "raid /x --device=1 --level=RAID1 --encrypted --passphrase=\\\"QX\\\" raid.1 raid.2\\n"
},
{
"cmd": "raid",
"cls": "F15_Raid.cls F15_RaidData.cls",
"vs": [
13000,
14000,
15000
],
"line": "/x --device=1 --level=RAID1 raid.1 raid.2 --encrypted --escrowcert=QX",
"text": "raid /x --device=1 --level=RAID1 --encrypted --escrowcert=\\\"QX\\\" raid.1 raid.2\\n"
},
{
"cmd": "raid",
"cls": "F15_Raid.cls F15_RaidData.cls",
"vs": [
13000,
14000,
15000
],
"line": "/x --device=1 --level=RAID1 raid.1 raid.2 --encrypted --escrowcert=c --backuppassphrase",
"text": "raid /x --device=1 --level=RAID1 --encrypted --escrowcert=\\\"c\\\" --backuppassphrase raid.1 raid.2\\n"
},
{
"cmd": "raid",
"cls": "F15_Raid.cls F15_RaidData.cls",
"vs": [
13000,
14000,
15000
],
"line": "/x --device=1 --level=RAID1 raid.1 raid.2 --encrypted --cipher=QX",
"text": null
},
{
"cmd": "raid",
"cls": "F15_Raid.cls F15_RaidData.cls",
"vs": [
13000,
14000,
15000
],
"line": "/x --device=1 --level=RAID1 raid.1 raid.2 --encrypted --luks-version=QX",
"text": null
},
{
"cmd": "raid",
"cls": "F15_Raid.cls F15_RaidData.cls",
"vs": [
13000,
14000,
15000
],
"line": "/x --device=1 --level=RAID1 raid.1 raid.2 --encrypted --pbkdf=QX",
"text": null
},
{
"cmd": "raid",
"cls": "F15_Raid.cls F15_RaidData.cls",
"vs": [
13000,
14000,
15000
],
"line": "/x --device=1 --level=RAID1 raid.1 raid.2 --encrypted --pbkdf-memory=42",
"text": null
},
{
"cmd": "raid",
"cls": "F15_Raid.cls F15_RaidData.cls",
"vs": [
13000,
14000,
15000
],
"line": "/x --device=1 --level=RAID1 raid.1 raid.2 --encrypted --pbkdf-time=42",
"text": null
},
{
"cmd": "raid",
"cls": "F15_Raid.cls F15_RaidData.cls",
"vs": [
13000,
14000,
15000
],
"line": "/x --device=1 --level=RAID1 raid.1 raid.2 --encrypted --pbkdf-iterations=42",
"text": null
},
{
"cmd": "raid",
"cls": "F15_Raid.cls F15_RaidData.cls",
"vs": [
13000,
14000,
15000
],
"line": "/x --device=1 --level=RAID1 raid.1 raid.2 raid.3 --spares=1 --fstype=ext4 --fsoptions=o --fsprofile=f --encrypted",
"text": "raid /x --device=1 --fstype=\\\"ext4\\\" --level=RAID1 --spares=1 --fsoptions=\\\"o\\\" --fsprofile=\\\"f\\\" --encrypted raid.1 raid.2 raid.3\\n"
},
{
"cmd": "raid",
"cls": "F15_Raid.cls F15_RaidData.cls",
"vs": [
13000,
14000,
15000
],
"line": "/x --device=1 --noformat",
"text": "raid /x --device=1 --noformat --useexisting\\n"
},
{
"cmd": "raid",
"cls": "F15_Raid.cls F15_RaidData.cls",
"vs": [
13000,
14000,
15000
],
"line": "/x --device=1 --noformat --fstype=ext4",
"text": "raid /x --device=1 --fstype=\\\"ext4\\\" --noformat --useexisting\\n"
},
{
"cmd": "raid",
"cls": "F15_Raid.cls F15_RaidData.cls",
"vs": [
13000,
14000,
15000
],
"line": "/x --device=1 --noformat --label=QX",
"text": "raid /x --device=1 --noformat --useexisting --label=QX\\n"
},
{
"cmd": "raid",
"cls": "F15_Raid.cls F15_RaidData.cls",
"vs": [
13000,
14000,
15000
],
"line": "/x --device=1 --useexisting",
"text": "raid /x --device=1 --useexisting\\n"
},
{
"cmd": "raid",
"cls": "F15_Raid.cls F15_RaidData.cls",
"vs": [
13000,
14000,
15000
],
"line": "/x --device=1 --useexisting --fstype=ext4",
"text": "raid /x --device=1 --fstype=\\\"ext4\\\" --useexisting\\n"
},
{
"cmd": "raid",
"cls": "F15_Raid.cls F15_RaidData.cls",
"vs": [
13000,
14000,
15000
],
"line": "/x --device=1 --useexisting --label=QX",
"text": "raid /x --device=1 --useexisting --label=QX\\n"
},
{
"cmd": "raid",
"cls": "F15_Raid.cls F15_RaidData.cls",
"vs": [
13000,
14000,
15000
],
"line": "/x --device=1 --level=RAID1 raid.1 raid.2 raid.3",
"text": "raid /x --device=1 --level=RAID1 raid.1 raid.2 raid.3\\n"
},
{
"cmd": "raid",
"cls": "F15_Raid.cls F15_RaidData.cls",
"vs": [
13000,
14000,
15000
],
"line": "/x --device=1 --level=RAID1 raid.1 raid.2 raid.3 --device=md7",
"text": "raid /x --device=7 --level=RAID1 raid.1 raid.2 raid.3\\n"
},
{
"cmd": "raid",
"cls": "F15_Raid.cls F15_RaidData.cls",
"vs": [
13000,
14000,
15000
],
"line": "/x --device=1 --level=RAID1 raid.1 raid.2 raid.3 --device=data",
"text": null
},
{
"cmd": "raid",
"cls": "F15_Raid.cls F15_RaidData.cls",
"vs": [
13000,
14000,
15000
],
"line": "/x --device=1 --level=RAID1 raid.1 raid.2 raid.3 --level=0",
"text": "raid /x --device=1 --level=RAID0 raid.1 raid.2 raid.3\\n"
},
{
"cmd": "raid",
"cls": "F15_Raid.cls F15_RaidData.cls",
"vs": [
13000,
14000,
15000
],
"line": "/x --device=1 --level=RAID1 raid.1 raid.2 raid.3 --level=RAID5",
"text": "raid /x --device=1 --level=RAID5 raid.1 raid.2 raid.3\\n"
},
{
"cmd": "raid",
"cls": "F15_Raid.cls F15_RaidData.cls",
"vs": [
13000,
14000,
15000
],
"line": "/x --device=1 --level=RAID1 raid.1 raid.2 raid.3 --level=raid6",
"text": "raid /x --device=1 --level=RAID6 raid.1 raid.2 raid.3\\n"
},
{
"cmd": "raid",
"cls": "F15_Raid.cls F15_RaidData.cls",
"vs": [
13000,
14000,
15000
],
"line": "/x --device=1 --level=RAID1 raid.1 raid.2 raid.3 --level=10",
"text": "raid /x --device=1 --level=RAID10 raid.1 raid.2 raid.3\\n"
},
{
"cmd": "raid",
"cls": "F15_Raid.cls F15_RaidData.cls",
"vs": [
13000,
14000,
15000
],
"line": "/x --device=1 --level=RAID1 raid.1 raid.2 raid.3 --level=linear",
"text": null
},
{
"cmd": "raid",
"cls": "F15_Raid.cls F15_RaidData.cls",
"vs": [
13000,
14000,
15000
],
"line": "/x --device=1 --level=RAID1 raid.1 raid.2 raid.3 --spares=1",
"text": "raid /x --device=1 --level=RAID1 --spares=1 raid.1 raid.2 raid.3\\n"
},
{
"cmd": "raid",
"cls": "F15_Raid.cls F15_RaidData.cls",
"vs": [
13000,
14000,
15000
],
"line": "/x --device=1 --level=RAID1 raid.1 raid.2 raid.3 --spares=2",
"text": "raid /x --device=1 --level=RAID1 --spares=2 raid.1 raid.2 raid.3\\n"
},
{
"cmd": "volgroup",
"cls": "F16_VolGroup.cls F16_VolGroupData.cls",
"vs": [
14000,
15000,
16000,
17000,
18000,
11100
],
"line": "g pv.1",
"text": "volgroup g --pesize=32768 pv.1\\n"
},
{
"cmd": "volgroup",
"cls": "F16_VolGroup.cls F16_VolGroupData.cls",
"vs": [
14000,
15000,
16000,
17000,
18000,
11100
],
"line": "g pv.1 --noformat",
"text": null
},
{
"cmd": "volgroup",
"cls": "F16_VolGroup.cls F16_VolGroupData.cls",
"vs": [
14000,
15000,
16000,
17000,
18000,
11100
],
"line": "g pv.1 --pesize=42",
"text": "volgroup g --pesize=42 pv.1\\n"
},
{
"cmd": "volgroup",
"cls": "F16_VolGroup.cls F16_VolGroupData.cls",
"vs": [
14000,
15000,
16000,
17000,
18000,
11100
],
"line": "g pv.1 --useexisting",
"text": null
},
{
"cmd": "volgroup",
"cls": "F16_VolGroup.cls F16_VolGroupData.cls",
"vs": [
14000,
15000,
16000,
17000,
18000,
11100
],
"line": "g pv.1 --reserved-space=42",
"text": "volgroup g --pesize=32768 --reserved-space=42 pv.1\\n"
},
{
"cmd": "volgroup",
"cls": "F16_VolGroup.cls F16_VolGroupData.cls",
"vs": [
14000,
15000,
16000,
17000,
18000,
11100
],
"line": "g pv.1 --reserved-percent=42",
"text": "volgroup g --pesize=32768 --reserved-percent=42 pv.1\\n"
},
{
"cmd": "volgroup",
"cls": "F16_VolGroup.cls F16_VolGroupData.cls",
"vs": [
14000,
15000,
16000,
17000,
18000,
11100
],
"line": "g pv.1 pv.2 --pesize=8",
"text": "volgroup g --pesize=8 pv.1 pv.2\\n"
},
{
"cmd": "volgroup",
"cls": "F16_VolGroup.cls F16_VolGroupData.cls",
"vs": [
14000,
15000,
16000,
17000,
18000,
11100
],
"line": "g --noformat",
"text": "volgroup g --noformat --pesize=32768 --useexisting\\n"
},
{
"cmd": "volgroup",
"cls": "F16_VolGroup.cls F16_VolGroupData.cls",
"vs": [
14000,
15000,
16000,
17000,
18000,
11100
],
"line": "g --useexisting",
"text": "volgroup g --pesize=32768 --useexisting\\n"
},
{
"cmd": "volgroup",
"cls": "F16_VolGroup.cls F16_VolGroupData.cls",
"vs": [
14000,
15000,
16000,
17000,
18000,
11100
],
"line": "g --useexisting --noformat",
"text": "volgroup g --noformat --pesize=32768 --useexisting\\n"
},
{
"cmd": "btrfs",
"cls": "F17_BTRFS.cls F17_BTRFSData.cls",
"vs": [
15000,
16000,
17000,
18000,
19000,
20000
],
"line": "/x a",
"text": "btrfs /x a\\n"
},
{
"cmd": "btrfs",
"cls": "F17_BTRFS.cls F17_BTRFSData.cls",
"vs": [
15000,
16000,
17000,
18000,
19000,
20000
],
"line": "/x a --noformat",
"text": "btrfs /x --noformat --useexisting a\\n"
},
{
"cmd": "btrfs",
"cls": "F17_BTRFS.cls F17_BTRFSData.cls",
"vs": [
15000,
16000,
17000,
18000,
19000,
20000
],
"line": "/x a --useexisting",
"text": "btrfs /x --noformat --useexisting a\\n"
},
{
"cmd": "btrfs",
"cls": "F17_BTRFS.cls F17_BTRFSData.cls",
"vs": [
15000,
16000,
17000,
18000,
19000,
20000
],
"line": "/x a --label=QX",
"text": "btrfs /x --label=QX a\\n"
},
{
"cmd": "btrfs",
"cls": "F17_BTRFS.cls F17_BTRFSData.cls",
"vs": [
15000,
16000,
17000,
18000,
19000,
20000
],
"line": "/x a --data=raid0",
"text": "btrfs /x --data=raid0 a\\n"
},
{
"cmd": "btrfs",
"cls": "F17_BTRFS.cls F17_BTRFSData.cls",
"vs": [
15000,
16000,
17000,
18000,
19000,
20000
],
"line": "/x a --data=0",
"text": "btrfs /x --data=raid0 a\\n"
},
{
"cmd": "btrfs",
"cls": "F17_BTRFS.cls F17_BTRFSData.cls",
"vs": [
15000,
16000,
17000,
18000,
19000,
20000
],
"line": "/x a --data=raid1",
"text": "btrfs /x --data=raid1 a\\n"
},
{
"cmd": "btrfs",
"cls": "F17_BTRFS.cls F17_BTRFSData.cls",
"vs": [
15000,
16000,
17000,
18000,
19000,
20000
],
"line": "/x a --data=1",
"text": "btrfs /x --data=raid1 a\\n"
},
{
"cmd": "btrfs",
"cls": "F17_BTRFS.cls F17_BTRFSData.cls",
"vs": [
15000,
16000,
17000,
18000,
19000,
20000
],
"line": "/x a --data=raid10",
"text": "btrfs /x --data=raid10 a\\n"
},
{
"cmd": "btrfs",
"cls": "F17_BTRFS.cls F17_BTRFSData.cls",
"vs": [
15000,
16000,
17000,
18000,
19000,
20000
],
"line": "/x a --data=10",
"text": "btrfs /x --data=raid10 a\\n"
},
{
"cmd": "btrfs",
"cls": "F17_BTRFS.cls F17_BTRFSData.cls",
"vs": [
15000,
16000,
17000,
18000,
19000,
20000
],
"line": "/x a --data=single",
"text": "btrfs /x --data=single a\\n"
},
{
"cmd": "btrfs",
"cls": "F17_BTRFS.cls F17_BTRFSData.cls",
"vs": [
15000,
16000,
17000,
18000,
19000,
20000
],
"line": "/x a --metadata=raid0",
"text": "btrfs /x --metadata=raid0 a\\n"
},
{
"cmd": "btrfs",
"cls": "F17_BTRFS.cls F17_BTRFSData.cls",
"vs": [
15000,
16000,
17000,
18000,
19000,
20000
],
"line": "/x a --metadata=0",
"text": "btrfs /x --metadata=raid0 a\\n"
},
{
"cmd": "btrfs",
"cls": "F17_BTRFS.cls F17_BTRFSData.cls",
"vs": [
15000,
16000,
17000,
18000,
19000,
20000
],
"line": "/x a --metadata=raid1",
"text": "btrfs /x --metadata=raid1 a\\n"
},
{
"cmd": "btrfs",
"cls": "F17_BTRFS.cls F17_BTRFSData.cls",
"vs": [
15000,
16000,
17000,
18000,
19000,
20000
],
"line": "/x a --metadata=1",
"text": "btrfs /x --metadata=raid1 a\\n"
},
{
"cmd": "btrfs",
"cls": "F17_BTRFS.cls F17_BTRFSData.cls",
"vs": [
15000,
16000,
17000,
18000,
19000,
20000
],
"line": "/x a --metadata=raid10",
"text": "btrfs /x --metadata=raid10 a\\n"
},
{
"cmd": "btrfs",
"cls": "F17_BTRFS.cls F17_BTRFSData.cls",
"vs": [
15000,
16000,
17000,
18000,
19000,
20000
],
"line": "/x a --metadata=10",
"text": "btrfs /x --metadata=raid10 a\\n"
},
{
"cmd": "btrfs",
"cls": "F17_BTRFS.cls F17_BTRFSData.cls",
"vs": [
15000,
16000,
17000,
18000,
19000,
20000
],
"line": "/x a --metadata=single",
"text": "btrfs /x --metadata=single a\\n"
},
{
"cmd": "btrfs",
"cls": "F17_BTRFS.cls F17_BTRFSData.cls",
"vs": [
15000,
16000,
17000,
18000,
19000,
20000
],
"line": "/x a --subvol",
"text": null
},
{
"cmd": "btrfs",
"cls": "F17_BTRFS.cls F17_BTRFSData.cls",
"vs": [
15000,
16000,
17000,
18000,
19000,
20000
],
"line": "/x a --parent=QX",
"text": "btrfs /x a\\n"
},
{
"cmd": "btrfs",
"cls": "F17_BTRFS.cls F17_BTRFSData.cls",
"vs": [
15000,
16000,
17000,
18000,
19000,
20000
],
"line": "/x a --name=QX",
"text": "btrfs /x a\\n"
},
{
"cmd": "btrfs",
"cls": "F17_BTRFS.cls F17_BTRFSData.cls",
"vs": [
15000,
16000,
17000,
18000,
19000,
20000
],
"line": "/x a --mkfsoptions=QX",
"text": null
},
{
"cmd": "btrfs",
"cls": "F17_BTRFS.cls F17_BTRFSData.cls",
"vs": [
15000,
16000,
17000,
18000,
19000,
20000
],
"line": "/x --label=l --data=raid1 --metadata=raid0 a b",
"text": "btrfs /x --label=l --data=raid1 --metadata=raid0 a b\\n"
},
{
"cmd": "btrfs",
"cls": "F17_BTRFS.cls F17_BTRFSData.cls",
"vs": [
15000,
16000,
17000,
18000,
19000,
20000
],
"line": "none a",
"text": "btrfs none a\\n"
},
{
"cmd": "btrfs",
"cls": "F17_BTRFS.cls F17_BTRFSData.cls",
"vs": [
15000,
16000,
17000,
18000,
19000,
20000
],
"line": "/x --subvol --name=s LABEL=l",
"text": "btrfs /x --subvol --name=s LABEL=l\\n"
},
{
"cmd": "btrfs",
"cls": "F17_BTRFS.cls F17_BTRFSData.cls",
"vs": [
15000,
16000,
17000,
18000,
19000,
20000
],
"line": "/x --subvol --name=s LABEL=l --parent=QX",
"text": "btrfs /x --subvol --name=s LABEL=l\\n"
},
{
"cmd": "btrfs",
"cls": "F17_BTRFS.cls F17_BTRFSData.cls",
"vs": [
15000,
16000,
17000,
18000,
19000,
20000
],
"line": "/x --noformat LABEL=l",
"text": "btrfs /x --noformat --useexisting LABEL=l\\n"
},
{
"cmd": "btrfs",
"cls": "F17_BTRFS.cls F17_BTRFSData.cls",
"vs": [
15000,
16000,
17000,
18000,
19000,
20000
],
"line": "/x --noformat LABEL=l --useexisting",
"text": "btrfs /x --noformat --useexisting LABEL=l\\n"
},
{
"cmd": "keyboard",
"cls": "F18_Keyboard.cls",
"vs": [
16000,
17000,
18000,
19000,
20000,
21000,
22000,
23000,
24000,
25000,
26000,
27000,
30000,
31000,
32000,
33000,
34000,
19100,
26100
],
"line": "K",
"text": "# Keyboard layouts\\nkeyboard 'K'\\n"
},
{
"cmd": "keyboard",
"cls": "F18_Keyboard.cls",
"vs": [
16000,
17000,
18000,
19000,
20000,
21000,
22000,
23000,
24000,
25000,
26000,
27000,
30000,
31000,
32000,
33000,
34000,
19100,
26100
],
"line": "K --vckeymap=QX",
"text": "# Keyboard layouts\\n# old format: keyboard K\\n# new format:\\nkeyboard --vckeymap=QX\\n"
},
{
"cmd": "keyboard",
"cls": "F18_Keyboard.cls",
"vs": [
16000,
17000,
18000,
19000,
20000,
21000,
22000,
23000,
24000,
25000,
26000,
27000,
30000,
31000,
32000,
33000,
34000,
19100,
26100
],
"line": "K --xlayouts=QX",
"text": "# Keyboard layouts\\n# old format: keyboard K\\n# new format:\\nkeyboard --xlayouts='QX'\\n"
},
{
"cmd": "keyboard",
"cls": "F18_Keyboard.cls",
"vs": [
16000,
17000,
18000,
19000,
20000,
21000,
22000,
23000,
24000,
25000,
26000,
27000,
30000,
31000,
32000,
33000,
34000,
19100,
26100
],
"line": "K --switch=QX",
"text": "# Keyboard layouts\\nkeyboard 'K'\\n"
},
{
"cmd": "keyboard",
"cls": "F18_Keyboard.cls",
"vs": [
16000,
17000,
18000,
19000,
20000,
21000,
22000,
23000,
24000,
25000,
26000,
27000,
30000,
31000,
32000,
33000,
34000,
19100,
26100
],
"line": "K --vckeymap=v --xlayouts=a,b --switch=c,d",
"text": "# Keyboard layouts\\n# old format: keyboard K\\n# new format:\\nkeyboard --vckeymap=v --xlayouts='a','b' --switch='c','d'\\n"
},
{
"cmd": "keyboard",
"cls": "F18_Keyboard.cls",
"vs": [
16000,
17000,
18000,
19000,
20000,
21000,
22000,
23000,
24000,
25000,
26000,
27000,
30000,
31000,
32000,
33000,
34000,
19100,
26100
],
"line": "--xlayouts=a",
"text": "# Keyboard layouts\\nkeyboard --xlayouts='a'\\n"
},
{
"cmd": "keyboard",
"cls": "F18_Keyboard.cls",
"vs": [
16000,
17000,
18000,
19000,
20000,
21000,
22000,
23000,
24000,
25000,
26000,
27000,
30000,
31000,
32000,
33000,
34000,
19100,
26100
],
"line": "--vckeymap=v",
"text": "# Keyboard layouts\\nkeyboard --vckeymap=v\\n"
},
{
"cmd": "keyboard",
"cls": "F18_Keyboard.cls",
"vs": [
16000,
17000,
18000,
19000,
20000,
21000,
22000,
23000,
24000,
25000,
26000,
27000,
30000,
31000,
32000,
33000,
34000,
19100,
26100
],
"line": "--vckeymap=v --xlayouts=QX",
"text": "# Keyboard layouts\\nkeyboard --vckeymap=v --xlayouts='QX'\\n"
},
{
"cmd": "keyboard",
"cls": "F18_Keyboard.cls",
"vs": [
16000,
17000,
18000,
19000,
20000,
21000,
22000,
23000,
24000,
25000,
26000,
27000,
30000,
31000,
32000,
33000,
34000,
19100,
26100
],
"line": "--vckeymap=v --switch=QX",
"text": "# Keyboard layouts\\nkeyboard --vckeymap=v --switch='QX'\\n"
},
{
"cmd": "raid",
"cls": "F18_Raid.cls F18_RaidData.cls",
"vs": [
16000
],
"line": "/x --device=1 --level=RAID1 raid.1 raid.2",
"text": "raid /x --device=1 --level=RAID1 raid.1 raid.2\\n"
},
{
"cmd": "raid",
"cls": "F18_Raid.cls F18_RaidData.cls",
"vs": [
16000
],
"line": "/x --device=1 --level=RAID1 raid.1 raid.2 --device=QX",
"text": null
},
{
"cmd": "raid",
"cls": "F18_Raid.cls F18_RaidData.cls",
"vs": [
16000
],
"line": "/x --device=1 --level=RAID1 raid.1 raid.2 --fstype=QX",
"text": "raid /x --device=1 --fstype=\\\"QX\\\" --level=RAID1 raid.1 raid.2\\n"
},
{
"cmd": "raid",
"cls": "F18_Raid.cls F18_RaidData.cls",
"vs": [
16000
],
"line": "/x --device=1 --level=RAID1 raid.1 raid.2 --level=RAID0",
"text": "raid /x --device=1 --level=RAID0 raid.1 raid.2\\n"
},
{
"cmd": "raid",
"cls": "F18_Raid.cls F18_RaidData.cls",
"vs": [
16000
],
"line": "/x --device=1 --level=RAID1 raid.1 raid.2 --level=0",
"text": "raid /x --device=1 --level=RAID0 raid.1 raid.2\\n"
},
{
"cmd": "raid",
"cls": "F18_Raid.cls F18_RaidData.cls",
"vs": [
16000
],
"line": "/x --device=1 --level=RAID1 raid.1 raid.2 --level=RAID1",
"text": "raid /x --device=1 --level=RAID1 raid.1 raid.2\\n"
},
{
"cmd": "raid",
"cls": "F18_Raid.cls F18_RaidData.cls",
"vs": [
16000
],
"line": "/x --device=1 --level=RAID1 raid.1 raid.2 --level=1",
"text": "raid /x --device=1 --level=RAID1 raid.1 raid.2\\n"
},
{
"cmd": "raid",
"cls": "F18_Raid.cls F18_RaidData.cls",
"vs": [
16000
],
"line": "/x --device=1 --level=RAID1 raid.1 raid.2 --level=RAID5",
"text": "raid /x --device=1 --level=RAID5 raid.1 raid.2\\n"
},
{
"cmd": "raid",
"cls": "F18_Raid.cls F18_RaidData.cls",
"vs": [
16000
],
"line": "/x --device=1 --level=RAID1 raid.1 raid.2 --level=5",
"text": "raid /x --device=1 --level=RAID5 raid.1 raid.2\\n"
},
{
"cmd": "raid",
"cls": "F18_Raid.cls F18_RaidData.cls",
"vs": [
16000
],
"line": "/x --device=1 --level=RAID1 raid.1 raid.2 --level=RAID6",
"text": "raid /x --device=1 --level=RAID6 raid.1 raid.2\\n"
},
{
"cmd": "raid",
"cls": "F18_Raid.cls F18_RaidData.cls",
"vs": [
16000
],
"line": "/x --device=1 --level=RAID1 raid.1 raid.2 --level=6",
"text": "raid /x --device=1 --level=RAID6 raid.1 raid.2\\n"
},
{
"cmd": "raid",
"cls": "F18_Raid.cls F18_RaidData.cls",
"vs": [
16000
],
"line": "/x --device=1 --level=RAID1 raid.1 raid.2 --level=RAID10",
"text": "raid /x --device=1 --level=RAID10 raid.1 raid.2\\n"
},
{
"cmd": "raid",
"cls": "F18_Raid.cls F18_RaidData.cls",
"vs": [
16000
],
"line": "/x --device=1 --level=RAID1 raid.1 raid.2 --level=10",
"text": "raid /x --device=1 --level=RAID10 raid.1 raid.2\\n"
},
{
"cmd": "raid",
"cls": "F18_Raid.cls F18_RaidData.cls",
"vs": [
16000
],
"line": "/x --device=1 --level=RAID1 raid.1 raid.2 --noformat",
"text": null
},
{
"cmd": "raid",
"cls": "F18_Raid.cls F18_RaidData.cls",
"vs": [
16000
],
"line": "/x --device=1 --level=RAID1 raid.1 raid.2 --spares=42",
"text": "raid /x --device=1 --level=RAID1 --spares=42 raid.1 raid.2\\n"
},
{
"cmd": "raid",
"cls": "F18_Raid.cls F18_RaidData.cls",
"vs": [
16000
],
"line": "/x --device=1 --level=RAID1 raid.1 raid.2 --useexisting",
"text": null
},
{
"cmd": "raid",
"cls": "F18_Raid.cls F18_RaidData.cls",
"vs": [
16000
],
"line": "/x --device=1 --level=RAID1 raid.1 raid.2 --fsoptions=QX",
"text": "raid /x --device=1 --level=RAID1 --fsoptions=\\\"QX\\\" raid.1 raid.2\\n"
},
{
"cmd": "raid",
"cls": "F18_Raid.cls F18_RaidData.cls",
"vs": [
16000
],
"line": "/x --device=1 --level=RAID1 raid.1 raid.2 --bytes-per-inode=QX",
"text": null
},
{
"cmd": "raid",
"cls": "F18_Raid.cls F18_RaidData.cls",
"vs": [
16000
],
"line": "/x --device=1 --level=RAID1 raid.1 raid.2 --fsprofile=QX",
"text": "raid /x --device=1 --level=RAID1 --fsprofile=\\\"QX\\\" raid.1 raid.2\\n"
},
{
"cmd": "raid",
"cls": "F18_Raid.cls F18_RaidData.cls",
"vs": [
16000
],
"line": "/x --device=1 --level=RAID1 raid.1 raid.2 --encrypted",
"text": "raid /x --device=1 --level=RAID1 --encrypted raid.1 raid.2\\n"
},
{
"cmd": "raid",
"cls": "F18_Raid.cls F18_RaidData.cls",
"vs": [
16000
],
"line": "/x --device=1 --level=RAID1 raid.1 raid.2 --passphrase=QX",
"text": "raid /x --device=1 --level=RAID1 raid.1 raid.2\\n"
},
{
"cmd": "raid",
"cls": "F18_Raid.cls F18_RaidData.cls",
"vs": [
16000
],
"line": "/x --device=1 --level=RAID1 raid.1 raid.2 --escrowcert=QX",
"text": "raid /x --device=1 --level=RAID1 raid.1 raid.2\\n"
},
{
"cmd": "raid",
"cls": "F18_Raid.cls F18_RaidData.cls",
"vs": [
16000
],
"line": "/x --device=1 --level=RAID1 raid.1 raid.2 --backuppassphrase",
"text": "raid /x --device=1 --level=RAID1 raid.1 raid.2\\n"
},
{
"cmd": "raid",
"cls": "F18_Raid.cls F18_RaidData.cls",
"vs": [
16000
],
"line": "/x --device=1 --level=RAID1 raid.1 raid.2 --level=RAID4",
"text": "raid /x --device=1 --level=RAID4 raid.1 raid.2\\n"
},
{
"cmd": "raid",
"cls": "F18_Raid.cls F18_RaidData.cls",
"vs": [
16000
],
"line": "/x --device=1 --level=RAID1 raid.1 raid.2 --level=4",
"text": "raid /x --device=1 --level=RAID4 raid.1 raid.2\\n"
},
{
"cmd": "raid",
"cls": "F18_Raid.cls F18_RaidData.cls",
"vs": [
16000
],
"line": "/x --device=1 --level=RAID1 raid.1 raid.2 --label=QX",
"text": "raid /x --device=1 --level=RAID1 --label=QX raid.1 raid.2\\n"
},
{
"cmd": "raid",
"cls": "F18_Raid.cls F18_RaidData.cls",
"vs": [
16000
],
"line": "/x --device=1 --level=RAID1 raid.1 raid.2 --cipher=QX",
"text": "raid /x --device=1 --level=RAID1 raid.1 raid.2\\n"
},
{
"cmd": "raid",
"cls": "F18_Raid.cls F18_RaidData.cls",
"vs": [
16000
],
"line": "/x --device=1 --level=RAID1 raid.1 raid.2 --mkfsoptions=QX",
"text": null
},
{
"cmd": "raid",
"cls": "F18_Raid.cls F18_RaidData.cls",
"vs": [
16000
],
"line": "/x --device=1 --level=RAID1 raid.1 raid.2 --chunksize=42",
"text": null
},
{
"cmd": "raid",
"cls": "F18_Raid.cls F18_RaidData.cls",
"vs": [
16000
],
"line": "/x --device=1 --level=RAID1 raid.1 raid.2 --luks-version=QX",
"text": null
},
{
"cmd": "raid",
"cls": "F18_Raid.cls F18_RaidData.cls",
"vs": [
16000
],
"line": "/x --device=1 --level=RAID1 raid.1 raid.2 --pbkdf=QX",
"text": null
},
{
"cmd": "raid",
"cls": "F18_Raid.cls F18_RaidData.cls",
"vs": [
16000
],
"line": "/x --device=1 --level=RAID1 raid.1 raid.2 --pbkdf-memory=42",
"text": null
},
{
"cmd": "raid",
"cls": "F18_Raid.cls F18_RaidData.cls",
"vs": [
16000
],
"line": "/x --device=1 --level=RAID1 raid.1 raid.2 --pbkdf-time=42",
"text": null
},
{
"cmd": "raid",
"cls": "F18_Raid.cls F18_RaidData.cls",
"vs": [
16000
],
"line": "/x --device=1 --level=RAID1 raid.1 raid.2 --pbkdf-iterations=42",
"text": null
},
{
"cmd": "raid",
"cls": "F18_Raid.cls F18_RaidData.cls",
"vs": [
16000
],
"line": "/x --device=1 --level=RAID1 raid.1 raid.2 --bytes-per-inode=42",
"text": null
},
{
"cmd": "raid",
"cls": "F18_Raid.cls F18_RaidData.cls",
"vs": [
16000
],
"line": "/x --device=1 --level=RAID1 raid.1 raid.2 --encrypted --passphrase=QX",
"text": "raid /x --device=1 --level=RAID1 --encrypted --passphrase=\\\"QX\\\" raid.1 raid.2\\n"
},
{
"cmd": "raid",
"cls": "F18_Raid.cls F18_RaidData.cls",
"vs": [
16000
],
"line": "/x --device=1 --level=RAID1 raid.1 raid.2 --encrypted --escrowcert=QX",
"text": "raid /x --device=1 --level=RAID1 --encrypted --escrowcert=\\\"QX\\\" raid.1 raid.2\\n"
},
{
"cmd": "raid",
"cls": "F18_Raid.cls F18_RaidData.cls",
"vs": [
16000
],
"line": "/x --device=1 --level=RAID1 raid.1 raid.2 --encrypted --escrowcert=c --backuppassphrase",
"text": "raid /x --device=1 --level=RAID1 --encrypted --escrowcert=\\\"c\\\" --backuppassphrase raid.1 raid.2\\n"
},
{
"cmd": "raid",
"cls": "F18_Raid.cls F18_RaidData.cls",
"vs": [
16000
],
"line": "/x --device=1 --level=RAID1 raid.1 raid.2 --encrypted --cipher=QX",
"text": "raid /x --device=1 --level=RAID1 --encrypted --cipher=\\\"QX\\\" raid.1 raid.2\\n"
},
{
"cmd": "raid",
"cls": "F18_Raid.cls F18_RaidData.cls",
"vs": [
16000
],
"line": "/x --device=1 --level=RAID1 raid.1 raid.2 --encrypted --luks-version=QX",
"text": null
},
{
"cmd": "raid",
"cls": "F18_Raid.cls F18_RaidData.cls",
"vs": [
16000
],
"line": "/x --device=1 --level=RAID1 raid.1 raid.2 --encrypted --pbkdf=QX",
"text": null
},
{
"cmd": "raid",
"cls": "F18_Raid.cls F18_RaidData.cls",
"vs": [
16000
],
"line": "/x --device=1 --level=RAID1 raid.1 raid.2 --encrypted --pbkdf-memory=42",
"text": null
},
{
"cmd": "raid",
"cls": "F18_Raid.cls F18_RaidData.cls",
"vs": [
16000
],
"line": "/x --device=1 --level=RAID1 raid.1 raid.2 --encrypted --pbkdf-time=42",
"text": null
},
{
"cmd": "raid",
"cls": "F18_Raid.cls F18_RaidData.cls",
"vs": [
16000
],
"line": "/x --device=1 --level=RAID1 raid.1 raid.2 --encrypted --pbkdf-iterations=42",
"text": null
},
{
"cmd": "raid",
"cls": "F18_Raid.cls F18_RaidData.cls",
"vs": [
16000
],
"line": "/x --device=1 --level=RAID1 raid.1 raid.2 raid.3 --spares=1 --fstype=ext4 --fsoptions=o --fsprofile=f --encrypted",
"text": "raid /x --device=1 --fstype=\\\"ext4\\\" --level=RAID1 --spares=1 --fsoptions=\\\"o\\\" --fsprofile=\\\"f\\\" --encrypted raid.1 raid.2 raid.3\\n"
},
{
"cmd": "raid",
"cls": "F18_Raid.cls F18_RaidData.cls",
"vs": [
16000
],
"line": "/x --device=1 --noformat",
"text": "raid /x --device=1 --noformat --useexisting\\n"
},
{
"cmd": "raid",
"cls": "F18_Raid.cls F18_RaidData.cls",
"vs": [
16000
],
"line": "/x --device=1 --noformat --fstype=ext4",
"text": "raid /x --device=1 --fstype=\\\"ext4\\\" --noformat --useexisting\\n"
},
{
"cmd": "raid",
"cls": "F18_Raid.cls F18_RaidData.cls",
"vs": [
16000
],
"line": "/x --device=1 --noformat --label=QX",
"text": "raid /x --device=1 --noformat --useexisting --label=QX\\n"
},
{
"cmd": "raid",
"cls": "F18_Raid.cls F18_RaidData.cls",
"vs": [
16000
],
"line": "/x --device=1 --useexisting",
"text": "raid /x --device=1 --useexisting\\n"
},
{
"cmd": "raid",
"cls": "F18_Raid.cls F18_RaidData.cls",
"vs": [
16000
],
"line": "/x --device=1 --useexisting --fstype=ext4",
"text": "raid /x --device=1 --fstype=\\\"ext4\\\" --useexisting\\n"
},
{
"cmd": "raid",
"cls": "F18_Raid.cls F18_RaidData.cls",
"vs": [
16000
],
"line": "/x --device=1 --useexisting --label=QX",
"text": "raid /x --device=1 --useexisting --label=QX\\n"
},
{
"cmd": "raid",
"cls": "F18_Raid.cls F18_RaidData.cls",
"vs": [
16000
],
"line": "/x --device=1 --level=RAID1 raid.1 raid.2 raid.3",
"text": "raid /x --device=1 --level=RAID1 raid.1 raid.2 raid.3\\n"
},
{
"cmd": "raid",
"cls": "F18_Raid.cls F18_RaidData.cls",
"vs": [
16000
],
"line": "/x --device=1 --level=RAID1 raid.1 raid.2 raid.3 --device=md7",
"text": "raid /x --device=7 --level=RAID1 raid.1 raid.2 raid.3\\n"
},
{
"cmd": "raid",
"cls": "F18_Raid.cls F18_RaidData.cls",
"vs": [
16000
],
"line": "/x --device=1 --level=RAID1 raid.1 raid.2 raid.3 --device=data",
"text": null
},
{
"cmd": "raid",
"cls": "F18_Raid.cls F18_RaidData.cls",
"vs": [
16000
],
"line": "/x --device=1 --level=RAID1 raid.1 raid.2 raid.3 --level=0",
"text": "raid /x --device=1 --level=RAID0 raid.1 raid.2 raid.3\\n"
},
{
"cmd": "raid",
"cls": "F18_Raid.cls F18_RaidData.cls",
"vs": [
16000
],
"line": "/x --device=1 --level=RAID1 raid.1 raid.2 raid.3 --level=RAID5",
"text": "raid /x --device=1 --level=RAID5 raid.1 raid.2 raid.3\\n"
},
{
"cmd": "raid",
"cls": "F18_Raid.cls F18_RaidData.cls",
"vs": [
16000
],
"line": "/x --device=1 --level=RAID1 raid.1 raid.2 raid.3 --level=raid6",
"text": "raid /x --device=1 --level=RAID6 raid.1 raid.2 raid.3\\n"
},
{
"cmd": "raid",
"cls": "F18_Raid.cls F18_RaidData.cls",
"vs": [
16000
],
"line": "/x --device=1 --level=RAID1 raid.1 raid.2 raid.3 --level=10",
"text": "raid /x --device=1 --level=RAID10 raid.1 raid.2 raid.3\\n"
},
{
"cmd": "raid",
"cls": "F18_Raid.cls F18_RaidData.cls",
"vs": [
16000
],
"line": "/x --device=1 --level=RAID1 raid.1 raid.2 raid.3 --level=linear",
"text": null
},
{
"cmd": "raid",
"cls": "F18_Raid.cls F18_RaidData.cls",
"vs": [
16000
],
"line": "/x --device=1 --level=RAID1 raid.1 raid.2 raid.3 --spares=1",
"text": "raid /x --device=1 --level=RAID1 --spares=1 raid.1 raid.2 raid.3\\n"
},
{
"cmd": "raid",
"cls": "F18_Raid.cls F18_RaidData.cls",
"vs": [
16000
],
"line": "/x --device=1 --level=RAID1 raid.1 raid.2 raid.3 --spares=2",
"text": "raid /x --device=1 --level=RAID1 --spares=2 raid.1 raid.2 raid.3\\n"
},
{
"cmd": "rootpw",
"cls": "F18_RootPw.cls",
"vs": [
16000,
17000,
18000,
19000,
20000,
21000,
22000,
23000,
24000,
25000,
26000,
27000,
30000,
31000,
32000,
33000,
34000,
19100,
26100
],
"line": "P",
"text": "# Root password\\nrootpw --plaintext P\\n"
},
{
"cmd": "rootpw",
"cls": "F18_RootPw.cls",
"vs": [
16000,
17000,
18000,
19000,
20000,
21000,
22000,
23000,
24000,
25000,
26000,
27000,
30000,
31000,
32000,
33000,
34000,
19100,
26100
],
"line": "P --iscrypted",
"text": "# Root password\\nrootpw --iscrypted P\\n"
},
{
"cmd": "rootpw",
"cls": "F18_RootPw.cls",
"vs": [
16000,
17000,
18000,
19000,
20000,
21000,
22000,
23000,
24000,
25000,
26000,
27000,
30000,
31000,
32000,
33000,
34000,
19100,
26100
],
"line": "P --lock",
"text": "# Root password\\nrootpw --lock --plaintext P\\n"
},
{
"cmd": "rootpw",
"cls": "F18_RootPw.cls",
"vs": [
16000,
17000,
18000,
19000,
20000,
21000,
22000,
23000,
24000,
25000,
26000,
27000,
30000,
31000,
32000,
33000,
34000,
19100,
26100
],
"line": "P --plaintext",
"text": "# Root password\\nrootpw --plaintext P\\n"
},
{
"cmd": "rootpw",
"cls": "F18_RootPw.cls",
"vs": [
16000,
17000,
18000,
19000,
20000,
21000,
22000,
23000,
24000,
25000,
26000,
27000,
30000,
31000,
32000,
33000,
34000,
19100,
26100
],
"line": "a#b",
"text": "# Root password\\nrootpw --plaintext \\\"a#b\\\"\\n"
},
{
"cmd": "rootpw",
"cls": "F18_RootPw.cls",
"vs": [
16000,
17000,
18000,
19000,
20000,
21000,
22000,
23000,
24000,
25000,
26000,
27000,
30000,
31000,
32000,
33000,
34000,
19100,
26100
],
"line": "--iscrypted a#b",
"text": "# Root password\\nrootpw --iscrypted \\\"a#b\\\"\\n"
},
{
"cmd": "rootpw",
"cls": "F18_RootPw.cls",
"vs": [
16000,
17000,
18000,
19000,
20000,
21000,
22000,
23000,
24000,
25000,
26000,
27000,
30000,
31000,
32000,
33000,
34000,
19100,
26100
],
"line": "--lock a",
"text": "# Root password\\nrootpw --lock --plaintext a\\n"
},
{
"cmd": "rootpw",
"cls": "F18_RootPw.cls",
"vs": [
16000,
17000,
18000,
19000,
20000,
21000,
22000,
23000,
24000,
25000,
26000,
27000,
30000,
31000,
32000,
33000,
34000,
19100,
26100
],
"line": "--lock",
"text": "#Root password\\nrootpw --lock\\n"
},
{
"cmd": "rootpw",
"cls": "F18_RootPw.cls",
"vs": [
16000,
17000,
18000,
19000,
20000,
21000,
22000,
23000,
24000,
25000,
26000,
27000,
30000,
31000,
32000,
33000,
34000,
19100,
26100
],
"line": "--lock --iscrypted",
"text": "#Root password\\nrootpw --lock\\n"
},
{
"cmd": "rootpw",
"cls": "F18_RootPw.cls",
"vs": [
16000,
17000,
18000,
19000,
20000,
21000,
22000,
23000,
24000,
25000,
26000,
27000,
30000,
31000,
32000,
33000,
34000,
19100,
26100
],
"line": "--lock --plaintext",
"text": "#Root password\\nrootpw --lock\\n"
},
{
"cmd": "raid",
"cls": "F19_Raid.cls F18_RaidData.cls",
"vs": [
17000
],
"line": "/x --device=1 --level=RAID1 raid.1 raid.2",
"text": "raid /x --device=1 --level=RAID1 raid.1 raid.2\\n"
},
{
"cmd": "raid",
"cls": "F19_Raid.cls F18_RaidData.cls",
"vs": [
17000
],
"line": "/x --device=1 --level=RAID1 raid.1 raid.2 --device=QX",
"text": "raid /x --device=QX --level=RAID1 raid.1 raid.2\\n"
},
{
"cmd": "raid",
"cls": "F19_Raid.cls F18_RaidData.cls",
"vs": [
17000
],
"line": "/x --device=1 --level=RAID1 raid.1 raid.2 --fstype=QX",
"text": "raid /x --device=1 --fstype=\\\"QX\\\" --level=RAID1 raid.1 raid.2\\n"
},
{
"cmd": "raid",
"cls": "F19_Raid.cls F18_RaidData.cls",
"vs": [
17000
],
"line": "/x --device=1 --level=RAID1 raid.1 raid.2 --level=RAID0",
"text": "raid /x --device=1 --level=RAID0 raid.1 raid.2\\n"
},
{
"cmd": "raid",
"cls": "F19_Raid.cls F18_RaidData.cls",
"vs": [
17000
],
"line": "/x --device=1 --level=RAID1 raid.1 raid.2 --level=0",
"text": "raid /x --device=1 --level=RAID0 raid.1 raid.2\\n"
},
{
"cmd": "raid",
"cls": "F19_Raid.cls F18_RaidData.cls",
"vs": [
17000
],
"line": "/x --device=1 --level=RAID1 raid.1 raid.2 --level=RAID1",
"text": "raid /x --device=1 --level=RAID1 raid.1 raid.2\\n"
},
{
"cmd": "raid",
"cls": "F19_Raid.cls F18_RaidData.cls",
"vs": [
17000
],
"line": "/x --device=1 --level=RAID1 raid.1 raid.2 --level=1",
"text": "raid /x --device=1 --level=RAID1 raid.1 raid.2\\n"
},
{
"cmd": "raid",
"cls": "F19_Raid.cls F18_RaidData.cls",
"vs": [
17000
],
"line": "/x --device=1 --level=RAID1 raid.1 raid.2 --level=RAID5",
"text": "raid /x --device=1 --level=RAID5 raid.1 raid.2\\n"
},
{
"cmd": "raid",
"cls": "F19_Raid.cls F18_RaidData.cls",
"vs": [
17000
],
"line": "/x --device=1 --level=RAID1 raid.1 raid.2 --level=5",
"text": "raid /x --device=1 --level=RAID5 raid.1 raid.2\\n"
},
{
"cmd": "raid",
"cls": "F19_Raid.cls F18_RaidData.cls",
"vs": [
17000
],
"line": "/x --device=1 --level=RAID1 raid.1 raid.2 --level=RAID6",
"text": "raid /x --device=1 --level=RAID6 raid.1 raid.2\\n"
},
{
"cmd": "raid",
"cls": "F19_Raid.cls F18_RaidData.cls",
"vs": [
17000
],
"line": "/x --device=1 --level=RAID1 raid.1 raid.2 --level=6",
"text": "raid /x --device=1 --level=RAID6 raid.1 raid.2\\n"
},
{
"cmd": "raid",
"cls": "F19_Raid.cls F18_RaidData.cls",
"vs": [
17000
],
"line": "/x --device=1 --level=RAID1 raid.1 raid.2 --level=RAID10",
"text": "raid /x --device=1 --level=RAID10 raid.1 raid.2\\n"
},
{
"cmd": "raid",
"cls": "F19_Raid.cls F18_RaidData.cls",
"vs": [
17000
],
"line": "/x --device=1 --level=RAID1 raid.1 raid.2 --level=10",
"text": "raid /x --device=1 --level=RAID10 raid.1 raid.2\\n"
},
{
"cmd": "raid",
"cls": "F19_Raid.cls F18_RaidData.cls",
"vs": [
17000
],
"line": "/x --device=1 --level=RAID1 raid.1 raid.2 --noformat",
"text": null
},
{
"cmd": "raid",
"cls": "F19_Raid.cls F18_RaidData.cls",
"vs": [
17000
],
"line": "/x --device=1 --level=RAID1 raid.1 raid.2 --spares=42",
"text": "raid /x --device=1 --level=RAID1 --spares=42 raid.1 raid.2\\n"
},
{
"cmd": "raid",
"cls": "F19_Raid.cls F18_RaidData.cls",
"vs": [
17000
],
"line": "/x --device=1 --level=RAID1 raid.1 raid.2 --useexisting",
"text": null
},
{
"cmd": "raid",
"cls": "F19_Raid.cls F18_RaidData.cls",
"vs": [
17000
],
"line": "/x --device=1 --level=RAID1 raid.1 raid.2 --fsoptions=QX",
"text": "raid /x --device=1 --level=RAID1 --fsoptions=\\\"QX\\\" raid.1 raid.2\\n"
},
{
"cmd": "raid",
"cls": "F19_Raid.cls F18_RaidData.cls",
"vs": [
17000
],
"line": "/x --device=1 --level=RAID1 raid.1 raid.2 --bytes-per-inode=QX",
"text": null
},
{
"cmd": "raid",
"cls": "F19_Raid.cls F18_RaidData.cls",
"vs": [
17000
],
"line": "/x --device=1 --level=RAID1 raid.1 raid.2 --fsprofile=QX",
"text": "raid /x --device=1 --level=RAID1 --fsprofile=\\\"QX\\\" raid.1 raid.2\\n"
},
{
"cmd": "raid",
"cls": "F19_Raid.cls F18_RaidData.cls",
"vs": [
17000
],
"line": "/x --device=1 --level=RAID1 raid.1 raid.2 --encrypted",
"text": "raid /x --device=1 --level=RAID1 --encrypted raid.1 raid.2\\n"
},
{
"cmd": "raid",
"cls": "F19_Raid.cls F18_RaidData.cls",
"vs": [
17000
],
"line": "/x --device=1 --level=RAID1 raid.1 raid.2 --passphrase=QX",
"text": "raid /x --device=1 --level=RAID1 raid.1 raid.2\\n"
},
{
"cmd": "raid",
"cls": "F19_Raid.cls F18_RaidData.cls",
"vs": [
17000
],
"line": "/x --device=1 --level=RAID1 raid.1 raid.2 --escrowcert=QX",
"text": "raid /x --device=1 --level=RAID1 raid.1 raid.2\\n"
},
{
"cmd": "raid",
"cls": "F19_Raid.cls F18_RaidData.cls",
"vs": [
17000
],
"line": "/x --device=1 --level=RAID1 raid.1 raid.2 --backuppassphrase",
"text": "raid /x --device=1 --level=RAID1 raid.1 raid.2\\n"
},
{
"cmd": "raid",
"cls": "F19_Raid.cls F18_RaidData.cls",
"vs": [
17000
],
"line": "/x --device=1 --level=RAID1 raid.1 raid.2 --level=RAID4",
"text": "raid /x --device=1 --level=RAID4 raid.1 raid.2\\n"
},
{
"cmd": "raid",
"cls": "F19_Raid.cls F18_RaidData.cls",
"vs": [
17000
],
"line": "/x --device=1 --level=RAID1 raid.1 raid.2 --level=4",
"text": "raid /x --device=1 --level=RAID4 raid.1 raid.2\\n"
},
{
"cmd": "raid",
"cls": "F19_Raid.cls F18_RaidData.cls",
"vs": [
17000
],
"line": "/x --device=1 --level=RAID1 raid.1 raid.2 --label=QX",
"text": "raid /x --device=1 --level=RAID1 --label=QX raid.1 raid.2\\n"
},
{
"cmd": "raid",
"cls": "F19_Raid.cls F18_RaidData.cls",
"vs": [
17000
],
"line": "/x --device=1 --level=RAID1 raid.1 raid.2 --cipher=QX",
"text": "raid /x --device=1 --level=RAID1 raid.1 raid.2\\n"
},
{
"cmd": "raid",
"cls": "F19_Raid.cls F18_RaidData.cls",
"vs": [
17000
],
"line": "/x --device=1 --level=RAID1 raid.1 raid.2 --mkfsoptions=QX",
"text": null
},
{
"cmd": "raid",
"cls": "F19_Raid.cls F18_RaidData.cls",
"vs": [
17000
],
"line": "/x --device=1 --level=RAID1 raid.1 raid.2 --chunksize=42",
"text": null
},
{
"cmd": "raid",
"cls": "F19_Raid.cls F18_RaidData.cls",
"vs": [
17000
],
"line": "/x --device=1 --level=RAID1 raid.1 raid.2 --luks-version=QX",
"text": null
},
{
"cmd": "raid",
"cls": "F19_Raid.cls F18_RaidData.cls",
"vs": [
17000
],
"line": "/x --device=1 --level=RAID1 raid.1 raid.2 --pbkdf=QX",
"text": null
},
{
"cmd": "raid",
"cls": "F19_Raid.cls F18_RaidData.cls",
"vs": [
17000
],
"line": "/x --device=1 --level=RAID1 raid.1 raid.2 --pbkdf-memory=42",
"text": null
},
{
"cmd": "raid",
"cls": "F19_Raid.cls F18_RaidData.cls",
"vs": [
17000
],
"line": "/x --device=1 --level=RAID1 raid.1 raid.2 --pbkdf-time=42",
"text": null
},
{
"cmd": "raid",
"cls": "F19_Raid.cls F18_RaidData.cls",
"vs": [
17000
],
"line": "/x --device=1 --level=RAID1 raid.1 raid.2 --pbkdf-iterations=42",
"text": null
},
{
"cmd": "raid",
"cls": "F19_Raid.cls F18_RaidData.cls",
"vs": [
17000
],
"line": "/x --device=1 --level=RAID1 raid.1 raid.2 --bytes-per-inode=42",
"text": null
},
{
"cmd": "raid",
"cls": "F19_Raid.cls F18_RaidData.cls",
"vs": [
17000
],
"line": "/x --device=1 --level=RAID1 raid.1 raid.2 --encrypted --passphrase=QX",
"text": "raid /x --device=1 --level=RAID1 --encrypted --passphrase=\\\"QX\\\" raid.1 raid.2\\n"
},
{
"cmd": "raid",
"cls": "F19_Raid.cls F18_RaidData.cls",
"vs": [
17000
],
"line": "/x --device=1 --level=RAID1 raid.1 raid.2 --encrypted --escrowcert=QX",
"text": "raid /x --device=1 --level=RAID1 --encrypted --escrowcert=\\\"QX\\\" raid.1 raid.2\\n"
},
{
"cmd": "raid",
"cls": "F19_Raid.cls F18_RaidData.cls",
"vs": [
17000
],
"line": "/x --device=1 --level=RAID1 raid.1 raid.2 --encrypted --escrowcert=c --backuppassphrase",
"text": "raid /x --device=1 --level=RAID1 --encrypted --escrowcert=\\\"c\\\" --backuppassphrase raid.1 raid.2\\n"
},
{
"cmd": "raid",
"cls": "F19_Raid.cls F18_RaidData.cls",
"vs": [
17000
],
"line": "/x --device=1 --level=RAID1 raid.1 raid.2 --encrypted --cipher=QX",
"text": "raid /x --device=1 --level=RAID1 --encrypted --cipher=\\\"QX\\\" raid.1 raid.2\\n"
},
{
"cmd": "raid",
"cls": "F19_Raid.cls F18_RaidData.cls",
"vs": [
17000
],
"line": "/x --device=1 --level=RAID1 raid.1 raid.2 --encrypted --luks-version=QX",
"text": null
},
{
"cmd": "raid",
"cls": "F19_Raid.cls F18_RaidData.cls",
"vs": [
17000
],
"line": "/x --device=1 --level=RAID1 raid.1 raid.2 --encrypted --pbkdf=QX",
"text": null
},
{
"cmd": "raid",
"cls": "F19_Raid.cls F18_RaidData.cls",
"vs": [
17000
],
"line": "/x --device=1 --level=RAID1 raid.1 raid.2 --encrypted --pbkdf-memory=42",
"text": null
},
{
"cmd": "raid",
"cls": "F19_Raid.cls F18_RaidData.cls",
"vs": [
17000
],
"line": "/x --device=1 --level=RAID1 raid.1 raid.2 --encrypted --pbkdf-time=42",
"text": null
},
{
"cmd": "raid",
"cls": "F19_Raid.cls F18_RaidData.cls",
"vs": [
17000
],
"line": "/x --device=1 --level=RAID1 raid.1 raid.2 --encrypted --pbkdf-iterations=42",
"text": null
},
{
"cmd": "raid",
"cls": "F19_Raid.cls F18_RaidData.cls",
"vs": [
17000
],
"line": "/x --device=1 --level=RAID1 raid.1 raid.2 raid.3 --spares=1 --fstype=ext4 --fsoptions=o --fsprofile=f --encrypted",
"text": "raid /x --device=1 --fstype=\\\"ext4\\\" --level=RAID1 --spares=1 --fsoptions=\\\"o\\\" --fsprofile=\\\"f\\\" --encrypted raid.1 raid.2 raid.3\\n"
},
{
"cmd": "raid",
"cls": "F19_Raid.cls F18_RaidData.cls",
"vs": [
17000
],
"line": "/x --device=1 --noformat",
"text": "raid /x --device=1 --noformat --useexisting\\n"
},
{
"cmd": "raid",
"cls": "F19_Raid.cls F18_RaidData.cls",
"vs": [
17000
],
"line": "/x --device=1 --noformat --fstype=ext4",
"text": "raid /x --device=1 --fstype=\\\"ext4\\\" --noformat --useexisting\\n"
},
{
"cmd": "raid",
"cls": "F19_Raid.cls F18_RaidData.cls",
"vs": [
17000
],
"line": "/x --device=1 --noformat --label=QX",
"text": "raid /x --device=1 --noformat --useexisting --label=QX\\n"
},
{
"cmd": "raid",
"cls": "F19_Raid.cls F18_RaidData.cls",
"vs": [
17000
],
"line": "/x --device=1 --useexisting",
"text": "raid /x --device=1 --useexisting\\n"
},
{
"cmd": "raid",
"cls": "F19_Raid.cls F18_RaidData.cls",
"vs": [
17000
],
"line": "/x --device=1 --useexisting --fstype=ext4",
"text": "raid /x --device=1 --fstype=\\\"ext4\\\" --useexisting\\n"
},
{
"cmd": "raid",
"cls": "F19_Raid.cls F18_RaidData.cls",
"vs": [
17000
],
"line": "/x --device=1 --useexisting --label=QX",
"text": "raid /x --device=1 --useexisting --label=QX\\n"
},
{
"cmd": "raid",
"cls": "F19_Raid.cls F18_RaidData.cls",
"vs": [
17000
],
"line": "/x --device=1 --level=RAID1 raid.1 raid.2 raid.3",
"text": "raid /x --device=1 --level=RAID1 raid.1 raid.2 raid.3\\n"
},
{
"cmd": "raid",
"cls": "F19_Raid.cls F18_RaidData.cls",
"vs": [
17000
],
"line": "/x --device=1 --level=RAID1 raid.1 raid.2 raid.3 --device=md7",
"text": "raid /x --device=7 --level=RAID1 raid.1 raid.2 raid.3\\n"
},
{
"cmd": "raid",
"cls": "F19_Raid.cls F18_RaidData.cls",
"vs": [
17000
],
"line": "/x --device=1 --level=RAID1 raid.1 raid.2 raid.3 --device=data",
"text": "raid /x --device=data --level=RAID1 raid.1 raid.2 raid.3\\n"
},
{
"cmd": "raid",
"cls": "F19_Raid.cls F18_RaidData.cls",
"vs": [
17000
],
"line": "/x --device=1 --level=RAID1 raid.1 raid.2 raid.3 --level=0",
"text": "raid /x --device=1 --level=RAID0 raid.1 raid.2 raid.3\\n"
},
{
"cmd": "raid",
"cls": "F19_Raid.cls F18_RaidData.cls",
"vs": [
17000
],
"line": "/x --device=1 --level=RAID1 raid.1 raid.2 raid.3 --level=RAID5",
"text": "raid /x --device=1 --level=RAID5 raid.1 raid.2 raid.3\\n"
},
{
"cmd": "raid",
"cls": "F19_Raid.cls F18_RaidData.cls",
"vs": [
17000
],
"line": "/x --device=1 --level=RAID1 raid.1 raid.2 raid.3 --level=raid6",
"text": "raid /x --device=1 --level=RAID6 raid.1 raid.2 raid.3\\n"
},
{
"cmd": "raid",
"cls": "F19_Raid.cls F18_RaidData.cls",
"vs": [
17000
],
"line": "/x --device=1 --level=RAID1 raid.1 raid.2 raid.3 --level=10",
"text": "raid /x --device=1 --level=RAID10 raid.1 raid.2 raid.3\\n"
},
{
"cmd": "raid",
"cls": "F19_Raid.cls F18_RaidData.cls",
"vs": [
17000
],
"line": "/x --device=1 --level=RAID1 raid.1 raid.2 raid.3 --level=linear",
"text": null
},
{
"cmd": "raid",
"cls": "F19_Raid.cls F18_RaidData.cls",
"vs": [
17000
],
"line": "/x --device=1 --level=RAID1 raid.1 raid.2 raid.3 --spares=1",
"text": "raid /x --device=1 --level=RAID1 --spares=1 raid.1 raid.2 raid.3\\n"
},
{
"cmd": "raid",
"cls": "F19_Raid.cls F18_RaidData.cls",
"vs": [
17000
],
"line": "/x --device=1 --level=RAID1 raid.1 raid.2 raid.3 --spares=2",
"text": "raid /x --device=1 --level=RAID1 --spares=2 raid.1 raid.2 raid.3\\n"
},
{
"cmd": "firewall",
"cls": "F20_Firewall.cls",
"vs": [
18000,
19000,
20000,
21000,
22000,
23000,
24000,
25000,
19100
],
"line": "",
"text": "# Firewall configuration\\nfirewall --enabled\\n"
},
{
"cmd": "firewall",
"cls": "F20_Firewall.cls",
"vs": [
18000,
19000,
20000,
21000,
22000,
23000,
24000,
25000,
19100
],
"line": "--disable",
"text": "# Firewall configuration\\nfirewall --disabled\\n"
},
{
"cmd": "firewall",
"cls": "F20_Firewall.cls",
"vs": [
18000,
19000,
20000,
21000,
22000,
23000,
24000,
25000,
19100
],
"line": "--disabled",
"text": "# Firewall configuration\\nfirewall --disabled\\n"
},
{
"cmd": "firewall",
"cls": "F20_Firewall.cls",
"vs": [
18000,
19000,
20000,
21000,
22000,
23000,
24000,
25000,
19100
],
"line": "--enable",
"text": "# Firewall configuration\\nfirewall --enabled\\n"
},
{
"cmd": "firewall",
"cls": "F20_Firewall.cls",
"vs": [
18000,
19000,
20000,
21000,
22000,
23000,
24000,
25000,
19100
],
"line": "--enabled",
"text": "# Firewall configuration\\nfirewall --enabled\\n"
},
{
"cmd": "firewall",
"cls": "F20_Firewall.cls",
"vs": [
18000,
19000,
20000,
21000,
22000,
23000,
24000,
25000,
19100
],
"line": "--port=QX:tcp",
"text": "# Firewall configuration\\nfirewall --enabled --port=QX:tcp\\n"
},
{
"cmd": "firewall",
"cls": "F20_Firewall.cls",
"vs": [
18000,
19000,
20000,
21000,
22000,
23000,
24000,
25000,
19100
],
"line": "--trust=QX",
"text": "# Firewall configuration\\nfirewall --enabled --trust=QX\\n"
},
{
"cmd": "firewall",
"cls": "F20_Firewall.cls",
"vs": [
18000,
19000,
20000,
21000,
22000,
23000,
24000,
25000,
19100
],
"line": "--service=QX",
"text": "# Firewall configuration\\nfirewall --enabled --service=QX\\n"
},
{
"cmd": "firewall",
"cls": "F20_Firewall.cls",
"vs": [
18000,
19000,
20000,
21000,
22000,
23000,
24000,
25000,
19100
],
"line": "--ftp",
"text": "# Firewall configuration\\nfirewall --enabled --service=ftp\\n"
},
{
"cmd": "firewall",
"cls": "F20_Firewall.cls",
"vs": [
18000,
19000,
20000,
21000,
22000,
23000,
24000,
25000,
19100
],
"line": "--http",
"text": "# Firewall configuration\\nfirewall --enabled --service=http\\n"
},
{
"cmd": "firewall",
"cls": "F20_Firewall.cls",
"vs": [
18000,
19000,
20000,
21000,
22000,
23000,
24000,
25000,
19100
],
"line": "--smtp",
"text": "# Firewall configuration\\nfirewall --enabled --service=smtp\\n"
},
{
"cmd": "firewall",
"cls": "F20_Firewall.cls",
"vs": [
18000,
19000,
20000,
21000,
22000,
23000,
24000,
25000,
19100
],
"line": "--ssh",
"text": "# Firewall configuration\\nfirewall --enabled --service=ssh\\n"
},
{
"cmd": "firewall",
"cls": "F20_Firewall.cls",
"vs": [
18000,
19000,
20000,
21000,
22000,
23000,
24000,
25000,
19100
],
"line": "--telnet=QX",
"text": null
},
{
"cmd": "firewall",
"cls": "F20_Firewall.cls",
"vs": [
18000,
19000,
20000,
21000,
22000,
23000,
24000,
25000,
19100
],
"line": "--remove-service=QX",
"text": "# Firewall configuration\\nfirewall --enabled --remove-service=QX\\n"
},
{
"cmd": "firewall",
"cls": "F20_Firewall.cls",
"vs": [
18000,
19000,
20000,
21000,
22000,
23000,
24000,
25000,
19100
],
"line": "--use-system-defaults",
"text": null
},
{
"cmd": "firewall",
"cls": "F20_Firewall.cls",
"vs": [
18000,
19000,
20000,
21000,
22000,
23000,
24000,
25000,
19100
],
"line": "--telnet",
"text": null
},
{
"cmd": "firewall",
"cls": "F20_Firewall.cls",
"vs": [
18000,
19000,
20000,
21000,
22000,
23000,
24000,
25000,
19100
],
"line": "--high=QX",
"text": null
},
{
"cmd": "firewall",
"cls": "F20_Firewall.cls",
"vs": [
18000,
19000,
20000,
21000,
22000,
23000,
24000,
25000,
19100
],
"line": "--medium=QX",
"text": null
},
{
"cmd": "firewall",
"cls": "F20_Firewall.cls",
"vs": [
18000,
19000,
20000,
21000,
22000,
23000,
24000,
25000,
19100
],
"line": "--port=ssh:tcp,telnet:tcp,smtp:tcp,http:tcp,ftp:tcp,imap:udp,99",
"text": "# Firewall configuration\\nfirewall --enabled --ssh --telnet --smtp --http --ftp --port=imap:udp,99:tcp\\n"
},
{
"cmd": "firewall",
"cls": "F20_Firewall.cls",
"vs": [
18000,
19000,
20000,
21000,
22000,
23000,
24000,
25000,
19100
],
"line": "--ssh --port=1:udp --trust=a --trust=b",
"text": "# Firewall configuration\\nfirewall --enabled --port=1:udp --trust=a,b --service=ssh\\n"
},
{
"cmd": "firewall",
"cls": "F20_Firewall.cls",
"vs": [
18000,
19000,
20000,
21000,
22000,
23000,
24000,
25000,
19100
],
"line": "--disabled --ssh",
"text": "# Firewall configuration\\nfirewall --disabled\\n"
},
{
"cmd": "firewall",
"cls": "F20_Firewall.cls",
"vs": [
18000,
19000,
20000,
21000,
22000,
23000,
24000,
25000,
19100
],
"line": "--service=a,b --remove-service=c,d --trust=t --port=5",
"text": "# Firewall configuration\\nfirewall --enabled --port=5:tcp --trust=t --service=a,b --remove-service=c,d\\n"
},
{
"cmd": "install",
"cls": "F20_Install.cls",
"vs": [
18000,
19000,
20000,
21000,
22000,
23000,
24000,
25000,
26000
],
"line": "",
"text": "# Install OS instead of upgrade\\ninstall\\n"
},
{
"cmd": "install",
"cls": "F20_Install.cls",
"vs": [
18000,
19000,
20000,
21000,
22000,
23000,
24000,
25000,
26000
],
"line": "--root-device=QX",
"text": "# Install OS instead of upgrade\\ninstall\\n"
},
{
"cmd": "raid",
"cls": "F20_Raid.cls F18_RaidData.cls",
"vs": [
18000,
19000,
20000
],
"line": "/x --device=1 --level=RAID1 raid.1 raid.2",
"text": "raid /x --device=1 --level=RAID1 raid.1 raid.2\\n"
},
{
"cmd": "raid",
"cls": "F20_Raid.cls F18_RaidData.cls",
"vs": [
18000,
19000,
20000
],
"line": "/x --device=1 --level=RAID1 raid.1 raid.2 --device=QX",
"text": "raid /x --device=QX --level=RAID1 raid.1 raid.2\\n"
},
{
"cmd": "raid",
"cls": "F20_Raid.cls F18_RaidData.cls",
"vs": [
18000,
19000,
20000
],
"line": "/x --device=1 --level=RAID1 raid.1 raid.2 --fstype=QX",
"text": "raid /x --device=1 --fstype=\\\"QX\\\" --level=RAID1 raid.1 raid.2\\n"
},
{
"cmd": "raid",
"cls": "F20_Raid.cls F18_RaidData.cls",
"vs": [
18000,
19000,
20000
],
"line": "/x --device=1 --level=RAID1 raid.1 raid.2 --level=RAID0",
"text": "raid /x --device=1 --level=RAID0 raid.1 raid.2\\n"
},
{
"cmd": "raid",
"cls": "F20_Raid.cls F18_RaidData.cls",
"vs": [
18000,
19000,
20000
],
"line": "/x --device=1 --level=RAID1 raid.1 raid.2 --level=0",
"text": "raid /x --device=1 --level=RAID0 raid.1 raid.2\\n"
},
{
"cmd": "raid",
"cls": "F20_Raid.cls F18_RaidData.cls",
"vs": [
18000,
19000,
20000
],
"line": "/x --device=1 --level=RAID1 raid.1 raid.2 --level=RAID1",
"text": "raid /x --device=1 --level=RAID1 raid.1 raid.2\\n"
},
{
"cmd": "raid",
"cls": "F20_Raid.cls F18_RaidData.cls",
"vs": [
18000,
19000,
20000
],
"line": "/x --device=1 --level=RAID1 raid.1 raid.2 --level=1",
"text": "raid /x --device=1 --level=RAID1 raid.1 raid.2\\n"
},
{
"cmd": "raid",
"cls": "F20_Raid.cls F18_RaidData.cls",
"vs": [
18000,
19000,
20000
],
"line": "/x --device=1 --level=RAID1 raid.1 raid.2 --level=RAID5",
"text": "raid /x --device=1 --level=RAID5 raid.1 raid.2\\n"
},
{
"cmd": "raid",
"cls": "F20_Raid.cls F18_RaidData.cls",
"vs": [
18000,
19000,
20000
],
"line": "/x --device=1 --level=RAID1 raid.1 raid.2 --level=5",
"text": "raid /x --device=1 --level=RAID5 raid.1 raid.2\\n"
},
{
"cmd": "raid",
"cls": "F20_Raid.cls F18_RaidData.cls",
"vs": [
18000,
19000,
20000
],
"line": "/x --device=1 --level=RAID1 raid.1 raid.2 --level=RAID6",
"text": "raid /x --device=1 --level=RAID6 raid.1 raid.2\\n"
},
{
"cmd": "raid",
"cls": "F20_Raid.cls F18_RaidData.cls",
"vs": [
18000,
19000,
20000
],
"line": "/x --device=1 --level=RAID1 raid.1 raid.2 --level=6",
"text": "raid /x --device=1 --level=RAID6 raid.1 raid.2\\n"
},
{
"cmd": "raid",
"cls": "F20_Raid.cls F18_RaidData.cls",
"vs": [
18000,
19000,
20000
],
"line": "/x --device=1 --level=RAID1 raid.1 raid.2 --level=RAID10",
"text": "raid /x --device=1 --level=RAID10 raid.1 raid.2\\n"
},
{
"cmd": "raid",
"cls": "F20_Raid.cls F18_RaidData.cls",
"vs": [
18000,
19000,
20000
],
"line": "/x --device=1 --level=RAID1 raid.1 raid.2 --level=10",
"text": "raid /x --device=1 --level=RAID10 raid.1 raid.2\\n"
},
{
"cmd": "raid",
"cls": "F20_Raid.cls F18_RaidData.cls",
"vs": [
18000,
19000,
20000
],
"line": "/x --device=1 --level=RAID1 raid.1 raid.2 --noformat",
"text": null
},
{
"cmd": "raid",
"cls": "F20_Raid.cls F18_RaidData.cls",
"vs": [
18000,
19000,
20000
],
"line": "/x --device=1 --level=RAID1 raid.1 raid.2 --spares=42",
"text": "raid /x --device=1 --level=RAID1 --spares=42 raid.1 raid.2\\n"
},
{
"cmd": "raid",
"cls": "F20_Raid.cls F18_RaidData.cls",
"vs": [
18000,
19000,
20000
],
"line": "/x --device=1 --level=RAID1 raid.1 raid.2 --useexisting",
"text": null
},
{
"cmd": "raid",
"cls": "F20_Raid.cls F18_RaidData.cls",
"vs": [
18000,
19000,
20000
],
"line": "/x --device=1 --level=RAID1 raid.1 raid.2 --fsoptions=QX",
"text": "raid /x --device=1 --level=RAID1 --fsoptions=\\\"QX\\\" raid.1 raid.2\\n"
},
{
"cmd": "raid",
"cls": "F20_Raid.cls F18_RaidData.cls",
"vs": [
18000,
19000,
20000
],
"line": "/x --device=1 --level=RAID1 raid.1 raid.2 --bytes-per-inode=QX",
"text": null
},
{
"cmd": "raid",
"cls": "F20_Raid.cls F18_RaidData.cls",
"vs": [
18000,
19000,
20000
],
"line": "/x --device=1 --level=RAID1 raid.1 raid.2 --fsprofile=QX",
"text": "raid /x --device=1 --level=RAID1 --fsprofile=\\\"QX\\\" raid.1 raid.2\\n"
},
{
"cmd": "raid",
"cls": "F20_Raid.cls F18_RaidData.cls",
"vs": [
18000,
19000,
20000
],
"line": "/x --device=1 --level=RAID1 raid.1 raid.2 --encrypted",
"text": "raid /x --device=1 --level=RAID1 --encrypted raid.1 raid.2\\n"
},
{
"cmd": "raid",
"cls": "F20_Raid.cls F18_RaidData.cls",
"vs": [
18000,
19000,
20000
],
"line": "/x --device=1 --level=RAID1 raid.1 raid.2 --passphrase=QX",
"text": "raid /x --device=1 --level=RAID1 raid.1 raid.2\\n"
},
{
"cmd": "raid",
"cls": "F20_Raid.cls F18_RaidData.cls",
"vs": [
18000,
19000,
20000
],
"line": "/x --device=1 --level=RAID1 raid.1 raid.2 --escrowcert=QX",
"text": "raid /x --device=1 --level=RAID1 raid.1 raid.2\\n"
},
{
"cmd": "raid",
"cls": "F20_Raid.cls F18_RaidData.cls",
"vs": [
18000,
19000,
20000
],
"line": "/x --device=1 --level=RAID1 raid.1 raid.2 --backuppassphrase",
"text": "raid /x --device=1 --level=RAID1 raid.1 raid.2\\n"
},
{
"cmd": "raid",
"cls": "F20_Raid.cls F18_RaidData.cls",
"vs": [
18000,
19000,
20000
],
"line": "/x --device=1 --level=RAID1 raid.1 raid.2 --level=RAID4",
"text": "raid /x --device=1 --level=RAID4 raid.1 raid.2\\n"
},
{
"cmd": "raid",
"cls": "F20_Raid.cls F18_RaidData.cls",
"vs": [
18000,
19000,
20000
],
"line": "/x --device=1 --level=RAID1 raid.1 raid.2 --level=4",
"text": "raid /x --device=1 --level=RAID4 raid.1 raid.2\\n"
},
{
"cmd": "raid",
"cls": "F20_Raid.cls F18_RaidData.cls",
"vs": [
18000,
19000,
20000
],
"line": "/x --device=1 --level=RAID1 raid.1 raid.2 --label=QX",
"text": "raid /x --device=1 --level=RAID1 --label=QX raid.1 raid.2\\n"
},
{
"cmd": "raid",
"cls": "F20_Raid.cls F18_RaidData.cls",
"vs": [
18000,
19000,
20000
],
"line": "/x --device=1 --level=RAID1 raid.1 raid.2 --cipher=QX",
"text": "raid /x --device=1 --level=RAID1 raid.1 raid.2\\n"
},
{
"cmd": "raid",
"cls": "F20_Raid.cls F18_RaidData.cls",
"vs": [
18000,
19000,
20000
],
"line": "/x --device=1 --level=RAID1 raid.1 raid.2 --mkfsoptions=QX",
"text": null
},
{
"cmd": "raid",
"cls": "F20_Raid.cls F18_RaidData.cls",
"vs": [
18000,
19000,
20000
],
"line": "/x --device=1 --level=RAID1 raid.1 raid.2 --chunksize=42",
"text": null
},
{
"cmd": "raid",
"cls": "F20_Raid.cls F18_RaidData.cls",
"vs": [
18000,
19000,
20000
],
"line": "/x --device=1 --level=RAID1 raid.1 raid.2 --luks-version=QX",
"text": null
},
{
"cmd": "raid",
"cls": "F20_Raid.cls F18_RaidData.cls",
"vs": [
18000,
19000,
20000
],
"line": "/x --device=1 --level=RAID1 raid.1 raid.2 --pbkdf=QX",
"text": null
},
{
"cmd": "raid",
"cls": "F20_Raid.cls F18_RaidData.cls",
"vs": [
18000,
19000,
20000
],
"line": "/x --device=1 --level=RAID1 raid.1 raid.2 --pbkdf-memory=42",
"text": null
},
{
"cmd": "raid",
"cls": "F20_Raid.cls F18_RaidData.cls",
"vs": [
18000,
19000,
20000
],
"line": "/x --device=1 --level=RAID1 raid.1 raid.2 --pbkdf-time=42",
"text": null
},
{
"cmd": "raid",
"cls": "F20_Raid.cls F18_RaidData.cls",
"vs": [
18000,
19000,
20000
],
"line": "/x --device=1 --level=RAID1 raid.1 raid.2 --pbkdf-iterations=42",
"text": null
},
{
"cmd": "raid",
"cls": "F20_Raid.cls F18_RaidData.cls",
"vs": [
18000,
19000,
20000
],
"line": "/x --device=1 --level=RAID1 raid.1 raid.2 --bytes-per-inode=42",
"text": null
},
{
"cmd": "raid",
"cls": "F20_Raid.cls F18_RaidData.cls",
"vs": [
18000,
19000,
20000
],
"line": "/x --device=1 --level=RAID1 raid.1 raid.2 --encrypted --passphrase=QX",
"text": "raid /x --device=1 --level=RAID1 --encrypted --passphrase=\\\"QX\\\" raid.1 raid.2\\n"
},
{
"cmd": "raid",
"cls": "F20_Raid.cls F18_RaidData.cls",
"vs": [
18000,
19000,
20000
],
"line": "/x --device=1 --level=RAID1 raid.1 raid.2 --encrypted --escrowcert=QX",
"text": "raid /x --device=1 --level=RAID1 --encrypted --escrowcert=\\\"QX\\\" raid.1 raid.2\\n"
},
{
"cmd": "raid",
"cls": "F20_Raid.cls F18_RaidData.cls",
"vs": [
18000,
19000,
20000
],
"line": "/x --device=1 --level=RAID1 raid.1 raid.2 --encrypted --escrowcert=c --backuppassphrase",
"text": "raid /x --device=1 --level=RAID1 --encrypted --escrowcert=\\\"c\\\" --backuppassphrase raid.1 raid.2\\n"
},
{
"cmd": "raid",
"cls": "F20_Raid.cls F18_RaidData.cls",
"vs": [
18000,
19000,
20000
],
"line": "/x --device=1 --level=RAID1 raid.1 raid.2 --encrypted --cipher=QX",
"text": "raid /x --device=1 --level=RAID1 --encrypted --cipher=\\\"QX\\\" raid.1 raid.2\\n"
},
{
"cmd": "raid",
"cls": "F20_Raid.cls F18_RaidData.cls",
"vs": [
18000,
19000,
20000
],
"line": "/x --device=1 --level=RAID1 raid.1 raid.2 --encrypted --luks-version=QX",
"text": null
},
{
"cmd": "raid",
"cls": "F20_Raid.cls F18_RaidData.cls",
"vs": [
18000,
19000,
20000
],
"line": "/x --device=1 --level=RAID1 raid.1 raid.2 --encrypted --pbkdf=QX",
"text": null
},
{
"cmd": "raid",
"cls": "F20_Raid.cls F18_RaidData.cls",
"vs": [
18000,
19000,
20000
],
"line": "/x --device=1 --level=RAID1 raid.1 raid.2 --encrypted --pbkdf-memory=42",
"text": null
},
{
"cmd": "raid",
"cls": "F20_Raid.cls F18_RaidData.cls",
"vs": [
18000,
19000,
20000
],
"line": "/x --device=1 --level=RAID1 raid.1 raid.2 --encrypted --pbkdf-time=42",
"text": null
},
{
"cmd": "raid",
"cls": "F20_Raid.cls F18_RaidData.cls",
"vs": [
18000,
19000,
20000
],
"line": "/x --device=1 --level=RAID1 raid.1 raid.2 --encrypted --pbkdf-iterations=42",
"text": null
},
{
"cmd": "raid",
"cls": "F20_Raid.cls F18_RaidData.cls",
"vs": [
18000,
19000,
20000
],
"line": "/x --device=1 --level=RAID1 raid.1 raid.2 raid.3 --spares=1 --fstype=ext4 --fsoptions=o --fsprofile=f --encrypted",
"text": "raid /x --device=1 --fstype=\\\"ext4\\\" --level=RAID1 --spares=1 --fsoptions=\\\"o\\\" --fsprofile=\\\"f\\\" --encrypted raid.1 raid.2 raid.3\\n"
},
{
"cmd": "raid",
"cls": "F20_Raid.cls F18_RaidData.cls",
"vs": [
18000,
19000,
20000
],
"line": "/x --device=1 --noformat",
"text": "raid /x --device=1 --noformat --useexisting\\n"
},
{
"cmd": "raid",
"cls": "F20_Raid.cls F18_RaidData.cls",
"vs": [
18000,
19000,
20000
],
"line": "/x --device=1 --noformat --fstype=ext4",
"text": "raid /x --device=1 --fstype=\\\"ext4\\\" --noformat --useexisting\\n"
},
{
"cmd": "raid",
"cls": "F20_Raid.cls F18_RaidData.cls",
"vs": [
18000,
19000,
20000
],
"line": "/x --device=1 --noformat --label=QX",
"text": "raid /x --device=1 --noformat --useexisting --label=QX\\n"
},
{
"cmd": "raid",
"cls": "F20_Raid.cls F18_RaidData.cls",
"vs": [
18000,
19000,
20000
],
"line": "/x --device=1 --useexisting",
"text": "raid /x --device=1 --useexisting\\n"
},
{
"cmd": "raid",
"cls": "F20_Raid.cls F18_RaidData.cls",
"vs": [
18000,
19000,
20000
],
"line": "/x --device=1 --useexisting --fstype=ext4",
"text": "raid /x --device=1 --fstype=\\\"ext4\\\" --useexisting\\n"
},
{
"cmd": "raid",
"cls": "F20_Raid.cls F18_RaidData.cls",
"vs": [
18000,
19000,
20000
],
"line": "/x --device=1 --useexisting --label=QX",
"text": "raid /x --device=1 --useexisting --label=QX\\n"
},
{
"cmd": "raid",
"cls": "F20_Raid.cls F18_RaidData.cls",
"vs": [
18000,
19000,
20000
],
"line": "/x --device=1 --level=RAID1 raid.1 raid.2 raid.3",
"text": "raid /x --device=1 --level=RAID1 raid.1 raid.2 raid.3\\n"
},
{
"cmd": "raid",
"cls": "F20_Raid.cls F18_RaidData.cls",
"vs": [
18000,
19000,
20000
],
"line": "/x --device=1 --level=RAID1 raid.1 raid.2 raid.3 --device=md7",
"text": "raid /x --device=7 --level=RAID1 raid.1 raid.2 raid.3\\n"
},
{
"cmd": "raid",
"cls": "F20_Raid.cls F18_RaidData.cls",
"vs": [
18000,
19000,
20000
],
"line": "/x --device=1 --level=RAID1 raid.1 raid.2 raid.3 --device=data",
"text": "raid /x --device=data --level=RAID1 raid.1 raid.2 raid.3\\n"
},
{
"cmd": "raid",
"cls": "F20_Raid.cls F18_RaidData.cls",
"vs": [
18000,
19000,
20000
],
"line": "/x --device=1 --level=RAID1 raid.1 raid.2 raid.3 --level=0",
"text": "raid /x --device=1 --level=RAID0 raid.1 raid.2 raid.3\\n"
},
{
"cmd": "raid",
"cls": "F20_Raid.cls F18_RaidData.cls",
"vs": [
18000,
19000,
20000
],
"line": "/x --device=1 --level=RAID1 raid.1 raid.2 raid.3 --level=RAID5",
"text": "raid /x --device=1 --level=RAID5 raid.1 raid.2 raid.3\\n"
},
{
"cmd": "raid",
"cls": "F20_Raid.cls F18_RaidData.cls",
"vs": [
18000,
19000,
20000
],
"line": "/x --device=1 --level=RAID1 raid.1 raid.2 raid.3 --level=raid6",
"text": "raid /x --device=1 --level=RAID6 raid.1 raid.2 raid.3\\n"
},
{
"cmd": "raid",
"cls": "F20_Raid.cls F18_RaidData.cls",
"vs": [
18000,
19000,
20000
],
"line": "/x --device=1 --level=RAID1 raid.1 raid.2 raid.3 --level=10",
"text": "raid /x --device=1 --level=RAID10 raid.1 raid.2 raid.3\\n"
},
{
"cmd": "raid",
"cls": "F20_Raid.cls F18_RaidData.cls",
"vs": [
18000,
19000,
20000
],
"line": "/x --device=1 --level=RAID1 raid.1 raid.2 raid.3 --level=linear",
"text": null
},
{
"cmd": "raid",
"cls": "F20_Raid.cls F18_RaidData.cls",
"vs": [
18000,
19000,
20000
],
"line": "/x --device=1 --level=RAID1 raid.1 raid.2 raid.3 --spares=1",
"text": "raid /x --device=1 --level=RAID1 --spares=1 raid.1 raid.2 raid.3\\n"
},
{
"cmd": "raid",
"cls": "F20_Raid.cls F18_RaidData.cls",
"vs": [
18000,
19000,
20000
],
"line": "/x --device=1 --level=RAID1 raid.1 raid.2 raid.3 --spares=2",
"text": "raid /x --device=1 --level=RAID1 --spares=2 raid.1 raid.2 raid.3\\n"
},
{
"cmd": "volgroup",
"cls": "F21_VolGroup.cls F21_VolGroupData.cls",
"vs": [
19000,
20000,
21000,
22000,
23000,
24000,
25000,
26000,
27000,
30000,
31000,
32000,
33000,
34000
],
"line": "g pv.1",
"text": "volgroup g pv.1\\n"
},
{
"cmd": "volgroup",
"cls": "F21_VolGroup.cls F21_VolGroupData.cls",
"vs": [
19000,
20000,
21000,
22000,
23000,
24000,
25000,
26000,
27000,
30000,
31000,
32000,
33000,
34000
],
"line": "g pv.1 --noformat",
"text": null
},
{
"cmd": "volgroup",
"cls": "F21_VolGroup.cls F21_VolGroupData.cls",
"vs": [
19000,
20000,
21000,
22000,
23000,
24000,
25000,
26000,
27000,
30000,
31000,
32000,
33000,
34000
],
"line": "g pv.1 --pesize=42",
"text": "volgroup g --pesize=42 pv.1\\n"
},
{
"cmd": "volgroup",
"cls": "F21_VolGroup.cls F21_VolGroupData.cls",
"vs": [
19000,
20000,
21000,
22000,
23000,
24000,
25000,
26000,
27000,
30000,
31000,
32000,
33000,
34000
],
"line": "g pv.1 --useexisting",
"text": null
},
{
"cmd": "volgroup",
"cls": "F21_VolGroup.cls F21_VolGroupData.cls",
"vs": [
19000,
20000,
21000,
22000,
23000,
24000,
25000,
26000,
27000,
30000,
31000,
32000,
33000,
34000
],
"line": "g pv.1 --reserved-space=42",
"text": "volgroup g --reserved-space=42 pv.1\\n"
},
{
"cmd": "volgroup",
"cls": "F21_VolGroup.cls F21_VolGroupData.cls",
"vs": [
19000,
20000,
21000,
22000,
23000,
24000,
25000,
26000,
27000,
30000,
31000,
32000,
33000,
34000
],
"line": "g pv.1 --reserved-percent=42",
"text": "volgroup g --reserved-percent=42 pv.1\\n"
},
{
"cmd": "volgroup",
"cls": "F21_VolGroup.cls F21_VolGroupData.cls",
"vs": [
19000,
20000,
21000,
22000,
23000,
24000,
25000,
26000,
27000,
30000,
31000,
32000,
33000,
34000
],
"line": "g pv.1 pv.2 --pesize=8",
"text": "volgroup g --pesize=8 pv.1 pv.2\\n"
},
{
"cmd": "volgroup",
"cls": "F21_VolGroup.cls F21_VolGroupData.cls",
"vs": [
19000,
20000,
21000,
22000,
23000,
24000,
25000,
26000,
27000,
30000,
31000,
32000,
33000,
34000
],
"line": "g --noformat",
"text": "volgroup g --noformat --useexisting\\n"
},
{
"cmd": "volgroup",
"cls": "F21_VolGroup.cls F21_VolGroupData.cls",
"vs": [
19000,
20000,
21000,
22000,
23000,
24000,
25000,
26000,
27000,
30000,
31000,
32000,
33000,
34000
],
"line": "g --useexisting",
"text": "volgroup g --useexisting\\n"
},
{
"cmd": "volgroup",
"cls": "F21_VolGroup.cls F21_VolGroupData.cls",
"vs": [
19000,
20000,
21000,
22000,
23000,
24000,
25000,
26000,
27000,
30000,
31000,
32000,
33000,
34000
],
"line": "g --useexisting --noformat",
"text": "volgroup g --noformat --useexisting\\n"
},
{
"cmd": "btrfs",
"cls": "F23_BTRFS.cls F23_BTRFSData.cls",
"vs": [
21000,
22000,
23000,
24000,
25000,
26000,
27000,
30000,
31000,
32000,
33000,
34000
],
"line": "/x a",
"text": "btrfs /x a\\n"
},
{
"cmd": "btrfs",
"cls": "F23_BTRFS.cls F23_BTRFSData.cls",
"vs": [
21000,
22000,
23000,
24000,
25000,
26000,
27000,
30000,
31000,
32000,
33000,
34000
],
"line": "/x a --noformat",
"text": "btrfs /x --noformat --useexisting a\\n"
},
{
"cmd": "btrfs",
"cls": "F23_BTRFS.cls F23_BTRFSData.cls",
"vs": [
21000,
22000,
23000,
24000,
25000,
26000,
27000,
30000,
31000,
32000,
33000,
34000
],
"line": "/x a --useexisting",
"text": "btrfs /x --noformat --useexisting a\\n"
},
{
"cmd": "btrfs",
"cls": "F23_BTRFS.cls F23_BTRFSData.cls",
"vs": [
21000,
22000,
23000,
24000,
25000,
26000,
27000,
30000,
31000,
32000,
33000,
34000
],
"line": "/x a --label=QX",
"text": "btrfs /x --label=QX a\\n"
},
{
"cmd": "btrfs",
"cls": "F23_BTRFS.cls F23_BTRFSData.cls",
"vs": [
21000,
22000,
23000,
24000,
25000,
26000,
27000,
30000,
31000,
32000,
33000,
34000
],
"line": "/x a --data=raid0",
"text": "btrfs /x --data=raid0 a\\n"
},
{
"cmd": "btrfs",
"cls": "F23_BTRFS.cls F23_BTRFSData.cls",
"vs": [
21000,
22000,
23000,
24000,
25000,
26000,
27000,
30000,
31000,
32000,
33000,
34000
],
"line": "/x a --data=0",
"text": "btrfs /x --data=raid0 a\\n"
},
{
"cmd": "btrfs",
"cls": "F23_BTRFS.cls F23_BTRFSData.cls",
"vs": [
21000,
22000,
23000,
24000,
25000,
26000,
27000,
30000,
31000,
32000,
33000,
34000
],
"line": "/x a --data=raid1",
"text": "btrfs /x --data=raid1 a\\n"
},
{
"cmd": "btrfs",
"cls": "F23_BTRFS.cls F23_BTRFSData.cls",
"vs": [
21000,
22000,
23000,
24000,
25000,
26000,
27000,
30000,
31000,
32000,
33000,
34000
],
"line": "/x a --data=1",
"text": "btrfs /x --data=raid1 a\\n"
},
{
"cmd": "btrfs",
"cls": "F23_BTRFS.cls F23_BTRFSData.cls",
"vs": [
21000,
22000,
23000,
24000,
25000,
26000,
27000,
30000,
31000,
32000,
33000,
34000
],
"line": "/x a --data=raid10",
"text": "btrfs /x --data=raid10 a\\n"
},
{
"cmd": "btrfs",
"cls": "F23_BTRFS.cls F23_BTRFSData.cls",
"vs": [
21000,
22000,
23000,
24000,
25000,
26000,
27000,
30000,
31000,
32000,
33000,
34000
],
"line": "/x a --data=10",
"text": "btrfs /x --data=raid10 a\\n"
},
{
"cmd": "btrfs",
"cls": "F23_BTRFS.cls F23_BTRFSData.cls",
"vs": [
21000,
22000,
23000,
24000,
25000,
26000,
27000,
30000,
31000,
32000,
33000,
34000
],
"line": "/x a --data=single",
"text": "btrfs /x --data=single a\\n"
},
{
"cmd": "btrfs",
"cls": "F23_BTRFS.cls F23_BTRFSData.cls",
"vs": [
21000,
22000,
23000,
24000,
25000,
26000,
27000,
30000,
31000,
32000,
33000,
34000
],
"line": "/x a --metadata=raid0",
"text": "btrfs /x --metadata=raid0 a\\n"
},
{
"cmd": "btrfs",
"cls": "F23_BTRFS.cls F23_BTRFSData.cls",
"vs": [
21000,
22000,
23000,
24000,
25000,
26000,
27000,
30000,
31000,
32000,
33000,
34000
],
"line": "/x a --metadata=0",
"text": "btrfs /x --metadata=raid0 a\\n"
},
{
"cmd": "btrfs",
"cls": "F23_BTRFS.cls F23_BTRFSData.cls",
"vs": [
21000,
22000,
23000,
24000,
25000,
26000,
27000,
30000,
31000,
32000,
33000,
34000
],
"line": "/x a --metadata=raid1",
"text": "btrfs /x --metadata=raid1 a\\n"
},
{
"cmd": "btrfs",
"cls": "F23_BTRFS.cls F23_BTRFSData.cls",
"vs": [
21000,
22000,
23000,
24000,
25000,
26000,
27000,
30000,
31000,
32000,
33000,
34000
],
"line": "/x a --metadata=1",
"text": "btrfs /x --metadata=raid1 a\\n"
},
{
"cmd": "btrfs",
"cls": "F23_BTRFS.cls F23_BTRFSData.cls",
"vs": [
21000,
22000,
23000,
24000,
25000,
26000,
27000,
30000,
31000,
32000,
33000,
34000
],
"line": "/x a --metadata=raid10",
"text": "btrfs /x --metadata=raid10 a\\n"
},
{
"cmd": "btrfs",
"cls": "F23_BTRFS.cls F23_BTRFSData.cls",
"vs": [
21000,
22000,
23000,
24000,
25000,
26000,
27000,
30000,
31000,
32000,
33000,
34000
],
"line": "/x a --metadata=10",
"text": "btrfs /x --metadata=raid10 a\\n"
},
{
"cmd": "btrfs",
"cls": "F23_BTRFS.cls F23_BTRFSData.cls",
"vs": [
21000,
22000,
23000,
24000,
25000,
26000,
27000,
30000,
31000,
32000,
33000,
34000
],
"line": "/x a --metadata=single",
"text": "btrfs /x --metadata=single a\\n"
},
{
"cmd": "btrfs",
"cls": "F23_BTRFS.cls F23_BTRFSData.cls",
"vs": [
21000,
22000,
23000,
24000,
25000,
26000,
27000,
30000,
31000,
32000,
33000,
34000
],
"line": "/x a --subvol",
"text": null
},
{
"cmd": "btrfs",
"cls": "F23_BTRFS.cls F23_BTRFSData.cls",
"vs": [
21000,
22000,
23000,
24000,
25000,
26000,
27000,
30000,
31000,
32000,
33000,
34000
],
"line": "/x a --parent=QX",
"text": "btrfs /x a\\n"
},
{
"cmd": "btrfs",
"cls": "F23_BTRFS.cls F23_BTRFSData.cls",
"vs": [
21000,
22000,
23000,
24000,
25000,
26000,
27000,
30000,
31000,
32000,
33000,
34000
],
"line": "/x a --name=QX",
"text": "btrfs /x a\\n"
},
{
"cmd": "btrfs",
"cls": "F23_BTRFS.cls F23_BTRFSData.cls",
"vs": [
21000,
22000,
23000,
24000,
25000,
26000,
27000,
30000,
31000,
32000,
33000,
34000
],
"line": "/x a --mkfsoptions=QX",
"text": "btrfs /x --mkfsoptions=\\\"QX\\\" a\\n"
},
{
"cmd": "btrfs",
"cls": "F23_BTRFS.cls F23_BTRFSData.cls",
"vs": [
21000,
22000,
23000,
24000,
25000,
26000,
27000,
30000,
31000,
32000,
33000,
34000
],
"line": "/x --label=l --data=raid1 --metadata=raid0 a b",
"text": "btrfs /x --label=l --data=raid1 --metadata=raid0 a b\\n"
},
{
"cmd": "btrfs",
"cls": "F23_BTRFS.cls F23_BTRFSData.cls",
"vs": [
21000,
22000,
23000,
24000,
25000,
26000,
27000,
30000,
31000,
32000,
33000,
34000
],
"line": "none a",
"text": "btrfs none a\\n"
},
{
"cmd": "btrfs",
"cls": "F23_BTRFS.cls F23_BTRFSData.cls",
"vs": [
21000,
22000,
23000,
24000,
25000,
26000,
27000,
30000,
31000,
32000,
33000,
34000
],
"line": "/x --subvol --name=s LABEL=l",
"text": "btrfs /x --subvol --name=s LABEL=l\\n"
},
{
"cmd": "btrfs",
"cls": "F23_BTRFS.cls F23_BTRFSData.cls",
"vs": [
21000,
22000,
23000,
24000,
25000,
26000,
27000,
30000,
31000,
32000,
33000,
34000
],
"line": "/x --subvol --name=s LABEL=l --parent=QX",
"text": "btrfs /x --subvol --name=s LABEL=l\\n"
},
{
"cmd": "btrfs",
"cls": "F23_BTRFS.cls F23_BTRFSData.cls",
"vs": [
21000,
22000,
23000,
24000,
25000,
26000,
27000,
30000,
31000,
32000,
33000,
34000
],
"line": "/x --noformat LABEL=l",
"text": "btrfs /x --noformat --useexisting LABEL=l\\n"
},
{
"cmd": "btrfs",
"cls": "F23_BTRFS.cls F23_BTRFSData.cls",
"vs": [
21000,
22000,
23000,
24000,
25000,
26000,
27000,
30000,
31000,
32000,
33000,
34000
],
"line": "/x --noformat LABEL=l --useexisting",
"text": "btrfs /x --noformat --useexisting LABEL=l\\n"
},
{
"cmd": "raid",
"cls": "F23_Raid.cls F23_RaidData.cls",
"vs": [
21000,
22000
],
"line": "/x --device=1 --level=RAID1 raid.1 raid.2",
"text": "raid /x --device=1 --level=RAID1 raid.1 raid.2\\n"
},
{
"cmd": "raid",
"cls": "F23_Raid.cls F23_RaidData.cls",
"vs": [
21000,
22000
],
"line": "/x --device=1 --level=RAID1 raid.1 raid.2 --device=QX",
"text": "raid /x --device=QX --level=RAID1 raid.1 raid.2\\n"
},
{
"cmd": "raid",
"cls": "F23_Raid.cls F23_RaidData.cls",
"vs": [
21000,
22000
],
"line": "/x --device=1 --level=RAID1 raid.1 raid.2 --fstype=QX",
"text": "raid /x --device=1 --fstype=\\\"QX\\\" --level=RAID1 raid.1 raid.2\\n"
},
{
"cmd": "raid",
"cls": "F23_Raid.cls F23_RaidData.cls",
"vs": [
21000,
22000
],
"line": "/x --device=1 --level=RAID1 raid.1 raid.2 --level=RAID0",
"text": "raid /x --device=1 --level=RAID0 raid.1 raid.2\\n"
},
{
"cmd": "raid",
"cls": "F23_Raid.cls F23_RaidData.cls",
"vs": [
21000,
22000
],
"line": "/x --device=1 --level=RAID1 raid.1 raid.2 --level=0",
"text": "raid /x --device=1 --level=RAID0 raid.1 raid.2\\n"
},
{
"cmd": "raid",
"cls": "F23_Raid.cls F23_RaidData.cls",
"vs": [
21000,
22000
],
"line": "/x --device=1 --level=RAID1 raid.1 raid.2 --level=RAID1",
"text": "raid /x --device=1 --level=RAID1 raid.1 raid.2\\n"
},
{
"cmd": "raid",
"cls": "F23_Raid.cls F23_RaidData.cls",
"vs": [
21000,
22000
],
"line": "/x --device=1 --level=RAID1 raid.1 raid.2 --level=1",
"text": "raid /x --device=1 --level=RAID1 raid.1 raid.2\\n"
},
{
"cmd": "raid",
"cls": "F23_Raid.cls F23_RaidData.cls",
"vs": [
21000,
22000
],
"line": "/x --device=1 --level=RAID1 raid.1 raid.2 --level=RAID5",
"text": "raid /x --device=1 --level=RAID5 raid.1 raid.2\\n"
},
{
"cmd": "raid",
"cls": "F23_Raid.cls F23_RaidData.cls",
"vs": [
21000,
22000
],
"line": "/x --device=1 --level=RAID1 raid.1 raid.2 --level=5",
"text": "raid /x --device=1 --level=RAID5 raid.1 raid.2\\n"
},
{
"cmd": "raid",
"cls": "F23_Raid.cls F23_RaidData.cls",
"vs": [
21000,
22000
],
"line": "/x --device=1 --level=RAID1 raid.1 raid.2 --level=RAID6",
"text": "raid /x --device=1 --level=RAID6 raid.1 raid.2\\n"
},
{
"cmd": "raid",
"cls": "F23_Raid.cls F23_RaidData.cls",
"vs": [
21000,
22000
],
"line": "/x --device=1 --level=RAID1 raid.1 raid.2 --level=6",
"text": "raid /x --device=1 --level=RAID6 raid.1 raid.2\\n"
},
{
"cmd": "raid",
"cls": "F23_Raid.cls F23_RaidData.cls",
"vs": [
21000,
22000
],
"line": "/x --device=1 --level=RAID1 raid.1 raid.2 --level=RAID10",
"text": "raid /x --device=1 --level=RAID10 raid.1 raid.2\\n"
},
{
"cmd": "raid",
"cls": "F23_Raid.cls F23_RaidData.cls",
"vs": [
21000,
22000
],
"line": "/x --device=1 --level=RAID1 raid.1 raid.2 --level=10",
"text": "raid /x --device=1 --level=RAID10 raid.1 raid.2\\n"
},
{
"cmd": "raid",
"cls": "F23_Raid.cls F23_RaidData.cls",
"vs": [
21000,
22000
],
"line": "/x --device=1 --level=RAID1 raid.1 raid.2 --noformat",
"text": null
},
{
"cmd": "raid",
"cls": "F23_Raid.cls F23_RaidData.cls",
"vs": [
21000,
22000
],
"line": "/x --device=1 --level=RAID1 raid.1 raid.2 --spares=42",
"text": "raid /x --device=1 --level=RAID1 --spares=42 raid.1 raid.2\\n"
},
{
"cmd": "raid",
"cls": "F23_Raid.cls F23_RaidData.cls",
"vs": [
21000,
22000
],
"line": "/x --device=1 --level=RAID1 raid.1 raid.2 --useexisting",
"text": null
},
{
"cmd": "raid",
"cls": "F23_Raid.cls F23_RaidData.cls",
"vs": [
21000,
22000
],
"line": "/x --device=1 --level=RAID1 raid.1 raid.2 --fsoptions=QX",
"text": "raid /x --device=1 --level=RAID1 --fsoptions=\\\"QX\\\" raid.1 raid.2\\n"
},
{
"cmd": "raid",
"cls": "F23_Raid.cls F23_RaidData.cls",
"vs": [
21000,
22000
],
"line": "/x --device=1 --level=RAID1 raid.1 raid.2 --bytes-per-inode=QX",
"text": null
},
{
"cmd": "raid",
"cls": "F23_Raid.cls F23_RaidData.cls",
"vs": [
21000,
22000
],
"line": "/x --device=1 --level=RAID1 raid.1 raid.2 --fsprofile=QX",
"text": "raid /x --device=1 --level=RAID1 --fsprofile=\\\"QX\\\" raid.1 raid.2\\n"
},
{
"cmd": "raid",
"cls": "F23_Raid.cls F23_RaidData.cls",
"vs": [
21000,
22000
],
"line": "/x --device=1 --level=RAID1 raid.1 raid.2 --encrypted",
"text": "raid /x --device=1 --level=RAID1 --encrypted raid.1 raid.2\\n"
},
{
"cmd": "raid",
"cls": "F23_Raid.cls F23_RaidData.cls",
"vs": [
21000,
22000
],
"line": "/x --device=1 --level=RAID1 raid.1 raid.2 --passphrase=QX",
"text": "raid /x --device=1 --level=RAID1 raid.1 raid.2\\n"
},
{
"cmd": "raid",
"cls": "F23_Raid.cls F23_RaidData.cls",
"vs": [
21000,
22000
],
"line": "/x --device=1 --level=RAID1 raid.1 raid.2 --escrowcert=QX",
"text": "raid /x --device=1 --level=RAID1 raid.1 raid.2\\n"
},
{
"cmd": "raid",
"cls": "F23_Raid.cls F23_RaidData.cls",
"vs": [
21000,
22000
],
"line": "/x --device=1 --level=RAID1 raid.1 raid.2 --backuppassphrase",
"text": "raid /x --device=1 --level=RAID1 raid.1 raid.2\\n"
},
{
"cmd": "raid",
"cls": "F23_Raid.cls F23_RaidData.cls",
"vs": [
21000,
22000
],
"line": "/x --device=1 --level=RAID1 raid.1 raid.2 --level=RAID4",
"text": "raid /x --device=1 --level=RAID4 raid.1 raid.2\\n"
},
{
"cmd": "raid",
"cls": "F23_Raid.cls F23_RaidData.cls",
"vs": [
21000,
22000
],
"line": "/x --device=1 --level=RAID1 raid.1 raid.2 --level=4",
"text": "raid /x --device=1 --level=RAID4 raid.1 raid.2\\n"
},
{
"cmd": "raid",
"cls": "F23_Raid.cls F23_RaidData.cls",
"vs": [
21000,
22000
],
"line": "/x --device=1 --level=RAID1 raid.1 raid.2 --label=QX",
"text": "raid /x --device=1 --level=RAID1 --label=QX raid.1 raid.2\\n"
},
{
"cmd": "raid",
"cls": "F23_Raid.cls F23_RaidData.cls",
"vs": [
21000,
22000
],
"line": "/x --device=1 --level=RAID1 raid.1 raid.2 --cipher=QX",
"text": "raid /x --device=1 --level=RAID1 raid.1 raid.2\\n"
},
{
"cmd": "raid",
"cls": "F23_Raid.cls F23_RaidData.cls",
"vs": [
21000,
22000
],
"line": "/x --device=1 --level=RAID1 raid.1 raid.2 --mkfsoptions=QX",
"text": "raid /x --device=1 --level=RAID1 --mkfsoptions=\\\"QX\\\" raid.1 raid.2\\n"
},
{
"cmd": "raid",
"cls": "F23_Raid.cls F23_RaidData.cls",
"vs": [
21000,
22000
],
"line": "/x --device=1 --level=RAID1 raid.1 raid.2 --chunksize=42",
"text": null
},
{
"cmd": "raid",
"cls": "F23_Raid.cls F23_RaidData.cls",
"vs": [
21000,
22000
],
"line": "/x --device=1 --level=RAID1 raid.1 raid.2 --luks-version=QX",
"text": null
},
{
"cmd": "raid",
"cls": "F23_Raid.cls F23_RaidData.cls",
"vs": [
21000,
22000
],
"line": "/x --device=1 --level=RAID1 raid.1 raid.2 --pbkdf=QX",
"text": null
},
{
"cmd": "raid",
"cls": "F23_Raid.cls F23_RaidData.cls",
"vs": [
21000,
22000
],
"line": "/x --device=1 --level=RAID1 raid.1 raid.2 --pbkdf-memory=42",
"text": null
},
{
"cmd": "raid",
"cls": "F23_Raid.cls F23_RaidData.cls",
"vs": [
21000,
22000
],
"line": "/x --device=1 --level=RAID1 raid.1 raid.2 --pbkdf-time=42",
"text": null
},
{
"cmd": "raid",
"cls": "F23_Raid.cls F23_RaidData.cls",
"vs": [
21000,
22000
],
"line": "/x --device=1 --level=RAID1 raid.1 raid.2 --pbkdf-iterations=42",
"text": null
},
{
"cmd": "raid",
"cls": "F23_Raid.cls F23_RaidData.cls",
"vs": [
21000,
22000
],
"line": "/x --device=1 --level=RAID1 raid.1 raid.2 --bytes-per-inode=42",
"text": null
},
{
"cmd": "raid",
"cls": "F23_Raid.cls F23_RaidData.cls",
"vs": [
21000,
22000
],
"line": "/x --device=1 --level=RAID1 raid.1 raid.2 --encrypted --passphrase=QX",
"text": "raid /x --device=1 --level=RAID1 --encrypted --passphrase=\\\"QX\\\" raid.1 raid.2\\n"
},
{
"cmd": "raid",
"cls": "F23_Raid.cls F23_RaidData.cls",
"vs": [
21000,
22000
],
"line": "/x --device=1 --level=RAID1 raid.1 raid.2 --encrypted --escrowcert=QX",
"text": "raid /x --device=1 --level=RAID1 --encrypted --escrowcert=\\\"QX\\\" raid.1 raid.2\\n"
},
{
"cmd": "raid",
"cls": "F23_Raid.cls F23_RaidData.cls",
"vs": [
21000,
22000
],
"line": "/x --device=1 --level=RAID1 raid.1 raid.2 --encrypted --escrowcert=c --backuppassphrase",
"text": "raid /x --device=1 --level=RAID1 --encrypted --escrowcert=\\\"c\\\" --backuppassphrase raid.1 raid.2\\n"
},
{
"cmd": "raid",
"cls": "F23_Raid.cls F23_RaidData.cls",
"vs": [
21000,
22000
],
"line": "/x --device=1 --level=RAID1 raid.1 raid.2 --encrypted --cipher=QX",
"text": "raid /x --device=1 --level=RAID1 --encrypted --cipher=\\\"QX\\\" raid.1 raid.2\\n"
},
{
"cmd": "raid",
"cls": "F23_Raid.cls F23_RaidData.cls",
"vs": [
21000,
22000
],
"line": "/x --device=1 --level=RAID1 raid.1 raid.2 --encrypted --luks-version=QX",
"text": null
},
{
"cmd": "raid",
"cls": "F23_Raid.cls F23_RaidData.cls",
"vs": [
21000,
22000
],
"line": "/x --device=1 --level=RAID1 raid.1 raid.2 --encrypted --pbkdf=QX",
"text": null
},
{
"cmd": "raid",
"cls": "F23_Raid.cls F23_RaidData.cls",
"vs": [
21000,
22000
],
"line": "/x --device=1 --level=RAID1 raid.1 raid.2 --encrypted --pbkdf-memory=42",
"text": null
},
{
"cmd": "raid",
"cls": "F23_Raid.cls F23_RaidData.cls",
"vs": [
21000,
22000
],
"line": "/x --device=1 --level=RAID1 raid.1 raid.2 --encrypted --pbkdf-time=42",
"text": null
},
{
"cmd": "raid",
"cls": "F23_Raid.cls F23_RaidData.cls",
"vs": [
21000,
22000
],
"line": "/x --device=1 --level=RAID1 raid.1 raid.2 --encrypted --pbkdf-iterations=42",
"text": null
},
{
"cmd": "raid",
"cls": "F23_Raid.cls F23_RaidData.cls",
"vs": [
21000,
22000
],
"line": "/x --device=1 --level=RAID1 raid.1 raid.2 raid.3 --spares=1 --fstype=ext4 --fsoptions=o --fsprofile=f --encrypted",
"text": "raid /x --device=1 --fstype=\\\"ext4\\\" --level=RAID1 --spares=1 --fsoptions=\\\"o\\\" --fsprofile=\\\"f\\\" --encrypted raid.1 raid.2 raid.3\\n"
},
{
"cmd": "raid",
"cls": "F23_Raid.cls F23_RaidData.cls",
"vs": [
21000,
22000
],
"line": "/x --device=1 --noformat",
"text": "raid /x --device=1 --noformat --useexisting\\n"
},
{
"cmd": "raid",
"cls": "F23_Raid.cls F23_RaidData.cls",
"vs": [
21000,
22000
],
"line": "/x --device=1 --noformat --fstype=ext4",
"text": "raid /x --device=1 --fstype=\\\"ext4\\\" --noformat --useexisting\\n"
},
{
"cmd": "raid",
"cls": "F23_Raid.cls F23_RaidData.cls",
"vs": [
21000,
22000
],
"line": "/x --device=1 --noformat --label=QX",
"text": "raid /x --device=1 --noformat --useexisting --label=QX\\n"
},
{
"cmd": "raid",
"cls": "F23_Raid.cls F23_RaidData.cls",
"vs": [
21000,
22000
],
"line": "/x --device=1 --useexisting",
"text": "raid /x --device=1 --useexisting\\n"
},
{
"cmd": "raid",
"cls": "F23_Raid.cls F23_RaidData.cls",
"vs": [
21000,
22000
],
"line": "/x --device=1 --useexisting --fstype=ext4",
"text": "raid /x --device=1 --fstype=\\\"ext4\\\" --useexisting\\n"
},
{
"cmd": "raid",
"cls": "F23_Raid.cls F23_RaidData.cls",
"vs": [
21000,
22000
],
"line": "/x --device=1 --useexisting --label=QX",
"text": "raid /x --device=1 --useexisting --label=QX\\n"
},
{
"cmd": "raid",
"cls": "F23_Raid.cls F23_RaidData.cls",
"vs": [
21000,
22000
],
"line": "/x --device=1 --level=RAID1 raid.1 raid.2 raid.3",
"text": "raid /x --device=1 --level=RAID1 raid.1 raid.2 raid.3\\n"
},
{
"cmd": "raid",
"cls": "F23_Raid.cls F23_RaidData.cls",
"vs": [
21000,
22000
],
"line": "/x --device=1 --level=RAID1 raid.1 raid.2 raid.3 --device=md7",
"text": "raid /x --device=7 --level=RAID1 raid.1 raid.2 raid.3\\n"
},
{
"cmd": "raid",
"cls": "F23_Raid.cls F23_RaidData.cls",
"vs": [
21000,
22000
],
"line": "/x --device=1 --level=RAID1 raid.1 raid.2 raid.3 --device=data",
"text": "raid /x --device=data --level=RAID1 raid.1 raid.2 raid.3\\n"
},
{
"cmd": "raid",
"cls": "F23_Raid.cls F23_RaidData.cls",
"vs": [
21000,
22000
],
"line": "/x --device=1 --level=RAID1 raid.1 raid.2 raid.3 --level=0",
"text": "raid /x --device=1 --level=RAID0 raid.1 raid.2 raid.3\\n"
},
{
"cmd": "raid",
"cls": "F23_Raid.cls F23_RaidData.cls",
"vs": [
21000,
22000
],
"line": "/x --device=1 --level=RAID1 raid.1 raid.2 raid.3 --level=RAID5",
"text": "raid /x --device=1 --level=RAID5 raid.1 raid.2 raid.3\\n"
},
{
"cmd": "raid",
"cls": "F23_Raid.cls F23_RaidData.cls",
"vs": [
21000,
22000
],
"line": "/x --device=1 --level=RAID1 raid.1 raid.2 raid.3 --level=raid6",
"text": "raid /x --device=1 --level=RAID6 raid.1 raid.2 raid.3\\n"
},
{
"cmd": "raid",
"cls": "F23_Raid.cls F23_RaidData.cls",
"vs": [
21000,
22000
],
"line": "/x --device=1 --level=RAID1 raid.1 raid.2 raid.3 --level=10",
"text": "raid /x --device=1 --level=RAID10 raid.1 raid.2 raid.3\\n"
},
{
"cmd": "raid",
"cls": "F23_Raid.cls F23_RaidData.cls",
"vs": [
21000,
22000
],
"line": "/x --device=1 --level=RAID1 raid.1 raid.2 raid.3 --level=linear",
"text": null
},
{
"cmd": "raid",
"cls": "F23_Raid.cls F23_RaidData.cls",
"vs": [
21000,
22000
],
"line": "/x --device=1 --level=RAID1 raid.1 raid.2 raid.3 --spares=1",
"text": "raid /x --device=1 --level=RAID1 --spares=1 raid.1 raid.2 raid.3\\n"
},
{
"cmd": "raid",
"cls": "F23_Raid.cls F23_RaidData.cls",
"vs": [
21000,
22000
],
"line": "/x --device=1 --level=RAID1 raid.1 raid.2 raid.3 --spares=2",
"text": "raid /x --device=1 --level=RAID1 --spares=2 raid.1 raid.2 raid.3\\n"
},
{
"cmd": "raid",
"cls": "F25_Raid.cls F25_RaidData.cls",
"vs": [
23000,
24000,
25000,
26000
],
"line": "/x --device=1 --level=RAID1 raid.1 raid.2",
"text": "raid /x --device=1 --level=RAID1 raid.1 raid.2\\n"
},
{
"cmd": "raid",
"cls": "F25_Raid.cls F25_RaidData.cls",
"vs": [
23000,
24000,
25000,
26000
],
"line": "/x --device=1 --level=RAID1 raid.1 raid.2 --device=QX",
"text": "raid /x --device=QX --level=RAID1 raid.1 raid.2\\n"
},
{
"cmd": "raid",
"cls": "F25_Raid.cls F25_RaidData.cls",
"vs": [
23000,
24000,
25000,
26000
],
"line": "/x --device=1 --level=RAID1 raid.1 raid.2 --fstype=QX",
"text": "raid /x --device=1 --fstype=\\\"QX\\\" --level=RAID1 raid.1 raid.2\\n"
},
{
"cmd": "raid",
"cls": "F25_Raid.cls F25_RaidData.cls",
"vs": [
23000,
24000,
25000,
26000
],
"line": "/x --device=1 --level=RAID1 raid.1 raid.2 --level=RAID0",
"text": "raid /x --device=1 --level=RAID0 raid.1 raid.2\\n"
},
{
"cmd": "raid",
"cls": "F25_Raid.cls F25_RaidData.cls",
"vs": [
23000,
24000,
25000,
26000
],
"line": "/x --device=1 --level=RAID1 raid.1 raid.2 --level=0",
"text": "raid /x --device=1 --level=RAID0 raid.1 raid.2\\n"
},
{
"cmd": "raid",
"cls": "F25_Raid.cls F25_RaidData.cls",
"vs": [
23000,
24000,
25000,
26000
],
"line": "/x --device=1 --level=RAID1 raid.1 raid.2 --level=RAID1",
"text": "raid /x --device=1 --level=RAID1 raid.1 raid.2\\n"
},
{
"cmd": "raid",
"cls": "F25_Raid.cls F25_RaidData.cls",
"vs": [
23000,
24000,
25000,
26000
],
"line": "/x --device=1 --level=RAID1 raid.1 raid.2 --level=1",
"text": "raid /x --device=1 --level=RAID1 raid.1 raid.2\\n"
},
{
"cmd": "raid",
"cls": "F25_Raid.cls F25_RaidData.cls",
"vs": [
23000,
24000,
25000,
26000
],
"line": "/x --device=1 --level=RAID1 raid.1 raid.2 --level=RAID5",
"text": "raid /x --device=1 --level=RAID5 raid.1 raid.2\\n"
},
{
"cmd": "raid",
"cls": "F25_Raid.cls F25_RaidData.cls",
"vs": [
23000,
24000,
25000,
26000
],
"line": "/x --device=1 --level=RAID1 raid.1 raid.2 --level=5",
"text": "raid /x --device=1 --level=RAID5 raid.1 raid.2\\n"
},
{
"cmd": "raid",
"cls": "F25_Raid.cls F25_RaidData.cls",
"vs": [
23000,
24000,
25000,
26000
],
"line": "/x --device=1 --level=RAID1 raid.1 raid.2 --level=RAID6",
"text": "raid /x --device=1 --level=RAID6 raid.1 raid.2\\n"
},
{
"cmd": "raid",
"cls": "F25_Raid.cls F25_RaidData.cls",
"vs": [
23000,
24000,
25000,
26000
],
"line": "/x --device=1 --level=RAID1 raid.1 raid.2 --level=6",
"text": "raid /x --device=1 --level=RAID6 raid.1 raid.2\\n"
},
{
"cmd": "raid",
"cls": "F25_Raid.cls F25_RaidData.cls",
"vs": [
23000,
24000,
25000,
26000
],
"line": "/x --device=1 --level=RAID1 raid.1 raid.2 --level=RAID10",
"text": "raid /x --device=1 --level=RAID10 raid.1 raid.2\\n"
},
{
"cmd": "raid",
"cls": "F25_Raid.cls F25_RaidData.cls",
"vs": [
23000,
24000,
25000,
26000
],
"line": "/x --device=1 --level=RAID1 raid.1 raid.2 --level=10",
"text": "raid /x --device=1 --level=RAID10 raid.1 raid.2\\n"
},
{
"cmd": "raid",
"cls": "F25_Raid.cls F25_RaidData.cls",
"vs": [
23000,
24000,
25000,
26000
],
"line": "/x --device=1 --level=RAID1 raid.1 raid.2 --noformat",
"text": null
},
{
"cmd": "raid",
"cls": "F25_Raid.cls F25_RaidData.cls",
"vs": [
23000,
24000,
25000,
26000
],
"line": "/x --device=1 --level=RAID1 raid.1 raid.2 --spares=42",
"text": "raid /x --device=1 --level=RAID1 --spares=42 raid.1 raid.2\\n"
},
{
"cmd": "raid",
"cls": "F25_Raid.cls F25_RaidData.cls",
"vs": [
23000,
24000,
25000,
26000
],
"line": "/x --device=1 --level=RAID1 raid.1 raid.2 --useexisting",
"text": null
},
{
"cmd": "raid",
"cls": "F25_Raid.cls F25_RaidData.cls",
"vs": [
23000,
24000,
25000,
26000
],
"line": "/x --device=1 --level=RAID1 raid.1 raid.2 --fsoptions=QX",
"text": "raid /x --device=1 --level=RAID1 --fsoptions=\\\"QX\\\" raid.1 raid.2\\n"
},
{
"cmd": "raid",
"cls": "F25_Raid.cls F25_RaidData.cls",
"vs": [
23000,
24000,
25000,
26000
],
"line": "/x --device=1 --level=RAID1 raid.1 raid.2 --bytes-per-inode=QX",
"text": null
},
{
"cmd": "raid",
"cls": "F25_Raid.cls F25_RaidData.cls",
"vs": [
23000,
24000,
25000,
26000
],
"line": "/x --device=1 --level=RAID1 raid.1 raid.2 --fsprofile=QX",
"text": "raid /x --device=1 --level=RAID1 --fsprofile=\\\"QX\\\" raid.1 raid.2\\n"
},
{
"cmd": "raid",
"cls": "F25_Raid.cls F25_RaidData.cls",
"vs": [
23000,
24000,
25000,
26000
],
"line": "/x --device=1 --level=RAID1 raid.1 raid.2 --encrypted",
"text": "raid /x --device=1 --level=RAID1 --encrypted raid.1 raid.2\\n"
},
{
"cmd": "raid",
"cls": "F25_Raid.cls F25_RaidData.cls",
"vs": [
23000,
24000,
25000,
26000
],
"line": "/x --device=1 --level=RAID1 raid.1 raid.2 --passphrase=QX",
"text": "raid /x --device=1 --level=RAID1 raid.1 raid.2\\n"
},
{
"cmd": "raid",
"cls": "F25_Raid.cls F25_RaidData.cls",
"vs": [
23000,
24000,
25000,
26000
],
"line": "/x --device=1 --level=RAID1 raid.1 raid.2 --escrowcert=QX",
"text": "raid /x --device=1 --level=RAID1 raid.1 raid.2\\n"
},
{
"cmd": "raid",
"cls": "F25_Raid.cls F25_RaidData.cls",
"vs": [
23000,
24000,
25000,
26000
],
"line": "/x --device=1 --level=RAID1 raid.1 raid.2 --backuppassphrase",
"text": "raid /x --device=1 --level=RAID1 raid.1 raid.2\\n"
},
{
"cmd": "raid",
"cls": "F25_Raid.cls F25_RaidData.cls",
"vs": [
23000,
24000,
25000,
26000
],
"line": "/x --device=1 --level=RAID1 raid.1 raid.2 --level=RAID4",
"text": "raid /x --device=1 --level=RAID4 raid.1 raid.2\\n"
},
{
"cmd": "raid",
"cls": "F25_Raid.cls F25_RaidData.cls",
"vs": [
23000,
24000,
25000,
26000
],
"line": "/x --device=1 --level=RAID1 raid.1 raid.2 --level=4",
"text": "raid /x --device=1 --level=RAID4 raid.1 raid.2\\n"
},
{
"cmd": "raid",
"cls": "F25_Raid.cls F25_RaidData.cls",
"vs": [
23000,
24000,
25000,
26000
],
"line": "/x --device=1 --level=RAID1 raid.1 raid.2 --label=QX",
"text": "raid /x --device=1 --level=RAID1 --label=QX raid.1 raid.2\\n"
},
{
"cmd": "raid",
"cls": "F25_Raid.cls F25_RaidData.cls",
"vs": [
23000,
24000,
25000,
26000
],
"line": "/x --device=1 --level=RAID1 raid.1 raid.2 --cipher=QX",
"text": "raid /x --device=1 --level=RAID1 raid.1 raid.2\\n"
},
{
"cmd": "raid",
"cls": "F25_Raid.cls F25_RaidData.cls",
"vs": [
23000,
24000,
25000,
26000
],
"line": "/x --device=1 --level=RAID1 raid.1 raid.2 --mkfsoptions=QX",
"text": "raid /x --device=1 --level=RAID1 --mkfsoptions=\\\"QX\\\" raid.1 raid.2\\n"
},
{
"cmd": "raid",
"cls": "F25_Raid.cls F25_RaidData.cls",
"vs": [
23000,
24000,
25000,
26000
],
"line": "/x --device=1 --level=RAID1 raid.1 raid.2 --chunksize=42",
"text": "raid /x --device=1 --level=RAID1 --chunksize=42 raid.1 raid.2\\n"
},
{
"cmd": "raid",
"cls": "F25_Raid.cls F25_RaidData.cls",
"vs": [
23000,
24000,
25000,
26000
],
"line": "/x --device=1 --level=RAID1 raid.1 raid.2 --luks-version=QX",
"text": null
},
{
"cmd": "raid",
"cls": "F25_Raid.cls F25_RaidData.cls",
"vs": [
23000,
24000,
25000,
26000
],
"line": "/x --device=1 --level=RAID1 raid.1 raid.2 --pbkdf=QX",
"text": null
},
{
"cmd": "raid",
"cls": "F25_Raid.cls F25_RaidData.cls",
"vs": [
23000,
24000,
25000,
26000
],
"line": "/x --device=1 --level=RAID1 raid.1 raid.2 --pbkdf-memory=42",
"text": null
},
{
"cmd": "raid",
"cls": "F25_Raid.cls F25_RaidData.cls",
"vs": [
23000,
24000,
25000,
26000
],
"line": "/x --device=1 --level=RAID1 raid.1 raid.2 --pbkdf-time=42",
"text": null
},
{
"cmd": "raid",
"cls": "F25_Raid.cls F25_RaidData.cls",
"vs": [
23000,
24000,
25000,
26000
],
"line": "/x --device=1 --level=RAID1 raid.1 raid.2 --pbkdf-iterations=42",
"text": null
},
{
"cmd": "raid",
"cls": "F25_Raid.cls F25_RaidData.cls",
"vs": [
23000,
24000,
25000,
26000
],
"line": "/x --device=1 --level=RAID1 raid.1 raid.2 --bytes-per-inode=42",
"text": null
},
{
"cmd": "raid",
"cls": "F25_Raid.cls F25_RaidData.cls",
"vs": [
23000,
24000,
25000,
26000
],
"line": "/x --device=1 --level=RAID1 raid.1 raid.2 --encrypted --passphrase=QX",
"text": "raid /x --device=1 --level=RAID1 --encrypted --passphrase=\\\"QX\\\" raid.1 raid.2\\n"
},
{
"cmd": "raid",
"cls": "F25_Raid.cls F25_RaidData.cls",
"vs": [
23000,
24000,
25000,
26000
],
"line": "/x --device=1 --level=RAID1 raid.1 raid.2 --encrypted --escrowcert=QX",
"text": "raid /x --device=1 --level=RAID1 --encrypted --escrowcert=\\\"QX\\\" raid.1 raid.2\\n"
},
{
"cmd": "raid",
"cls": "F25_Raid.cls F25_RaidData.cls",
"vs": [
23000,
24000,
25000,
26000
],
"line": "/x --device=1 --level=RAID1 raid.1 raid.2 --encrypted --escrowcert=c --backuppassphrase",
"text": "raid /x --device=1 --level=RAID1 --encrypted --escrowcert=\\\"c\\\" --backuppassphrase raid.1 raid.2\\n"
},
{
"cmd": "raid",
"cls": "F25_Raid.cls F25_RaidData.cls",
"vs": [
23000,
24000,
25000,
26000
],
"line": "/x --device=1 --level=RAID1 raid.1 raid.2 --encrypted --cipher=QX",
"text": "raid /x --device=1 --level=RAID1 --encrypted --cipher=\\\"QX\\\" raid.1 raid.2\\n"
},
{
"cmd": "raid",
"cls": "F25_Raid.cls F25_RaidData.cls",
"vs": [
23000,
24000,
25000,
26000
],
"line": "/x --device=1 --level=RAID1 raid.1 raid.2 --encrypted --luks-version=QX",
"text": null
},
{
"cmd": "raid",
"cls": "F25_Raid.cls F25_RaidData.cls",
"vs": [
23000,
24000,
25000,
26000
],
"line": "/x --device=1 --level=RAID1 raid.1 raid.2 --encrypted --pbkdf=QX",
"text": null
},
{
"cmd": "raid",
"cls": "F25_Raid.cls F25_RaidData.cls",
"vs": [
23000,
24000,
25000,
26000
],
"line": "/x --device=1 --level=RAID1 raid.1 raid.2 --encrypted --pbkdf-memory=42",
"text": null
},
{
"cmd": "raid",
"cls": "F25_Raid.cls F25_RaidData.cls",
"vs": [
23000,
24000,
25000,
26000
],
"line": "/x --device=1 --level=RAID1 raid.1 raid.2 --encrypted --pbkdf-time=42",
"text": null
},
{
"cmd": "raid",
"cls": "F25_Raid.cls F25_RaidData.cls",
"vs": [
23000,
24000,
25000,
26000
],
"line": "/x --device=1 --level=RAID1 raid.1 raid.2 --encrypted --pbkdf-iterations=42",
"text": null
},
{
"cmd": "raid",
"cls": "F25_Raid.cls F25_RaidData.cls",
"vs": [
23000,
24000,
25000,
26000
],
"line": "/x --device=1 --level=RAID1 raid.1 raid.2 raid.3 --spares=1 --fstype=ext4 --fsoptions=o --fsprofile=f --encrypted",
"text": "raid /x --device=1 --fstype=\\\"ext4\\\" --level=RAID1 --spares=1 --fsoptions=\\\"o\\\" --fsprofile=\\\"f\\\" --encrypted raid.1 raid.2 raid.3\\n"
},
{
"cmd": "raid",
"cls": "F25_Raid.cls F25_RaidData.cls",
"vs": [
23000,
24000,
25000,
26000
],
"line": "/x --device=1 --noformat",
"text": "raid /x --device=1 --noformat --useexisting\\n"
},
{
"cmd": "raid",
"cls": "F25_Raid.cls F25_RaidData.cls",
"vs": [
23000,
24000,
25000,
26000
],
"line": "/x --device=1 --noformat --fstype=ext4",
"text": "raid /x --device=1 --fstype=\\\"ext4\\\" --noformat --useexisting\\n"
},
{
"cmd": "raid",
"cls": "F25_Raid.cls F25_RaidData.cls",
"vs": [
23000,
24000,
25000,
26000
],
"line": "/x --device=1 --noformat --label=QX",
"text": "raid /x --device=1 --noformat --useexisting --label=QX\\n"
},
{
"cmd": "raid",
"cls": "F25_Raid.cls F25_RaidData.cls",
"vs": [
23000,
24000,
25000,
26000
],
"line": "/x --device=1 --useexisting",
"text": "raid /x --device=1 --useexisting\\n"
},
{
"cmd": "raid",
"cls": "F25_Raid.cls F25_RaidData.cls",
"vs": [
23000,
24000,
25000,
26000
],
"line": "/x --device=1 --useexisting --fstype=ext4",
"text": "raid /x --device=1 --fstype=\\\"ext4\\\" --useexisting\\n"
},
{
"cmd": "raid",
"cls": "F25_Raid.cls F25_RaidData.cls",
"vs": [
23000,
24000,
25000,
26000
],
"line": "/x --device=1 --useexisting --label=QX",
"text": "raid /x --device=1 --useexisting --label=QX\\n"
},
{
"cmd": "raid",
"cls": "F25_Raid.cls F25_RaidData.cls",
"vs": [
23000,
24000,
25000,
26000
],
"line": "/x --device=1 --level=RAID1 raid.1 raid.2 raid.3",
"text": "raid /x --device=1 --level=RAID1 raid.1 raid.2 raid.3\\n"
},
{
"cmd": "raid",
"cls": "F25_Raid.cls F25_RaidData.cls",
"vs": [
23000,
24000,
25000,
26000
],
"line": "/x --device=1 --level=RAID1 raid.1 raid.2 raid.3 --device=md7",
"text": "raid /x --device=7 --level=RAID1 raid.1 raid.2 raid.3\\n"
},
{
"cmd": "raid",
"cls": "F25_Raid.cls F25_RaidData.cls",
"vs": [
23000,
24000,
25000,
26000
],
"line": "/x --device=1 --level=RAID1 raid.1 raid.2 raid.3 --device=data",
"text": "raid /x --device=data --level=RAID1 raid.1 raid.2 raid.3\\n"
},
{
"cmd": "raid",
"cls": "F25_Raid.cls F25_RaidData.cls",
"vs": [
23000,
24000,
25000,
26000
],
"line": "/x --device=1 --level=RAID1 raid.1 raid.2 raid.3 --level=0",
"text": "raid /x --device=1 --level=RAID0 raid.1 raid.2 raid.3\\n"
},
{
"cmd": "raid",
"cls": "F25_Raid.cls F25_RaidData.cls",
"vs": [
23000,
24000,
25000,
26000
],
"line": "/x --device=1 --level=RAID1 raid.1 raid.2 raid.3 --level=RAID5",
"text": "raid /x --device=1 --level=RAID5 raid.1 raid.2 raid.3\\n"
},
{
"cmd": "raid",
"cls": "F25_Raid.cls F25_RaidData.cls",
"vs": [
23000,
24000,
25000,
26000
],
"line": "/x --device=1 --level=RAID1 raid.1 raid.2 raid.3 --level=raid6",
"text": "raid /x --device=1 --level=RAID6 raid.1 raid.2 raid.3\\n"
},
{
"cmd": "raid",
"cls": "F25_Raid.cls F25_RaidData.cls",
"vs": [
23000,
24000,
25000,
26000
],
"line": "/x --device=1 --level=RAID1 raid.1 raid.2 raid.3 --level=10",
"text": "raid /x --device=1 --level=RAID10 raid.1 raid.2 raid.3\\n"
},
{
"cmd": "raid",
"cls": "F25_Raid.cls F25_RaidData.cls",
"vs": [
23000,
24000,
25000,
26000
],
"line": "/x --device=1 --level=RAID1 raid.1 raid.2 raid.3 --level=linear",
"text": null
},
{
"cmd": "raid",
"cls": "F25_Raid.cls F25_RaidData.cls",
"vs": [
23000,
24000,
25000,
26000
],
"line": "/x --device=1 --level=RAID1 raid.1 raid.2 raid.3 --spares=1",
"text": "raid /x --device=1 --level=RAID1 --spares=1 raid.1 raid.2 raid.3\\n"
},
{
"cmd": "raid",
"cls": "F25_Raid.cls F25_RaidData.cls",
"vs": [
23000,
24000,
25000,
26000
],
"line": "/x --device=1 --level=RAID1 raid.1 raid.2 raid.3 --spares=2",
"text": "raid /x --device=1 --level=RAID1 --spares=2 raid.1 raid.2 raid.3\\n"
},
{
"cmd": "cmdline",
"cls": "F26_DisplayMode.cls",
"vs": [
24000,
25000,
26000,
27000,
30000,
31000,
32000,
33000,
34000,
26100
],
"line": "",
"text": "cmdline\\n"
},
{
"cmd": "cmdline",
"cls": "F26_DisplayMode.cls",
"vs": [
24000,
25000,
26000,
27000,
30000,
31000,
32000,
33000,
34000,
26100
],
"line": "--non-interactive",
"text": null
},
{
"cmd": "graphical",
"cls": "F26_DisplayMode.cls",
"vs": [
24000,
25000,
26000,
27000,
30000,
31000,
32000,
33000,
34000,
26100
],
"line": "",
"text": "# Use graphical install\\ngraphical\\n"
},
{
"cmd": "graphical",
"cls": "F26_DisplayMode.cls",
"vs": [
24000,
25000,
26000,
27000,
30000,
31000,
32000,
33000,
34000,
26100
],
"line": "--non-interactive",
"text": "# Use graphical install\\ngraphical --non-interactive\\n"
},
{
"cmd": "snapshot",
"cls": "F26_Snapshot.cls F26_SnapshotData.cls",
"vs": [
24000,
25000,
26000,
27000,
30000,
31000,
32000,
33000,
34000,
19100,
26100
],
"line": "a/b --name=s --when=pre-install",
"text": "snapshot a/b --name=s --when=pre-install\\n"
},
{
"cmd": "snapshot",
"cls": "F26_Snapshot.cls F26_SnapshotData.cls",
"vs": [
24000,
25000,
26000,
27000,
30000,
31000,
32000,
33000,
34000,
19100,
26100
],
"line": "a/b --name=s --when=pre-install --name=QX",
"text": "snapshot a/b --name=QX --when=pre-install\\n"
},
{
"cmd": "snapshot",
"cls": "F26_Snapshot.cls F26_SnapshotData.cls",
"vs": [
24000,
25000,
26000,
27000,
30000,
31000,
32000,
33000,
34000,
19100,
26100
],
"line": "a/b --name=s --when=pre-install --when=post-install",
"text": "snapshot a/b --name=s --when=post-install\\n"
},
{
"cmd": "snapshot",
"cls": "F26_Snapshot.cls F26_SnapshotData.cls",
"vs": [
24000,
25000,
26000,
27000,
30000,
31000,
32000,
33000,
34000,
19100,
26100
],
"line": "a/b --name=s --when=pre-install --when=pre-install",
"text": "snapshot a/b --name=s --when=pre-install\\n"
},
{
"cmd": "snapshot",
"cls": "F26_Snapshot.cls F26_SnapshotData.cls",
"vs": [
24000,
25000,
26000,
27000,
30000,
31000,
32000,
33000,
34000,
19100,
26100
],
"line": "a/b --name=s --when=post-install",
"text": "snapshot a/b --name=s --when=post-install\\n"
},
{
"cmd": "text",
"cls": "F26_DisplayMode.cls",
"vs": [
24000,
25000,
26000,
27000,
30000,
31000,
32000,
33000,
34000,
26100
],
"line": "",
"text": "# Use text mode install\\ntext\\n"
},
{
"cmd": "text",
"cls": "F26_DisplayMode.cls",
"vs": [
24000,
25000,
26000,
27000,
30000,
31000,
32000,
33000,
34000,
26100
],
"line": "--non-interactive",
"text": "# Use text mode install\\ntext --non-interactive\\n"
},
{
"cmd": "mount",
"cls": "F27_Mount.cls F27_MountData.cls",
"vs": [
25000,
26000,
27000,
30000,
31000,
32000,
33000,
34000,
26100
],
"line": "a /x",
"text": "# Mount points configuration\\nmount a /x\\n\\n"
},
{
"cmd": "mount",
"cls": "F27_Mount.cls F27_MountData.cls",
"vs": [
25000,
26000,
27000,
30000,
31000,
32000,
33000,
34000,
26100
],
"line": "a /x --reformat=QX",
"text": "# Mount points configuration\\nmount a /x --reformat=QX\\n\\n"
},
{
"cmd": "mount",
"cls": "F27_Mount.cls F27_MountData.cls",
"vs": [
25000,
26000,
27000,
30000,
31000,
32000,
33000,
34000,
26100
],
"line": "a /x --mkfsoptions=QX",
"text": null
},
{
"cmd": "mount",
"cls": "F27_Mount.cls F27_MountData.cls",
"vs": [
25000,
26000,
27000,
30000,
31000,
32000,
33000,
34000,
26100
],
"line": "a /x --mountoptions=QX",
"text": "# Mount points configuration\\nmount a /x --mountoptions=\\\"QX\\\"\\n\\n"
},
{
"cmd": "mount",
"cls": "F27_Mount.cls F27_MountData.cls",
"vs": [
25000,
26000,
27000,
30000,
31000,
32000,
33000,
34000,
26100
],
"line": "a /x --reformat",
"text": "# Mount points configuration\\nmount a /x --reformat\\n\\n"
},
{
"cmd": "mount",
"cls": "F27_Mount.cls F27_MountData.cls",
"vs": [
25000,
26000,
27000,
30000,
31000,
32000,
33000,
34000,
26100
],
"line": "a none --mountoptions=QX",
"text": "# Mount points configuration\\nmount a none --mountoptions=\\\"QX\\\"\\n\\n"
},
{
"cmd": "mount",
"cls": "F27_Mount.cls F27_MountData.cls",
"vs": [
25000,
26000,
27000,
30000,
31000,
32000,
33000,
34000,
26100
],
"line": "a /x --reformat=ext4",
"text": "# Mount points configuration\\nmount a /x --reformat=ext4\\n\\n"
},
{
"cmd": "mount",
"cls": "F27_Mount.cls F27_MountData.cls",
"vs": [
25000,
26000,
27000,
30000,
31000,
32000,
33000,
34000,
26100
],
"line": "a /x --reformat=ext4 --mkfsoptions=QX",
"text": "# Mount points configuration\\nmount a /x --reformat=ext4 --mkfsoptions=\\\"QX\\\"\\n\\n"
},
{
"cmd": "firewall",
"cls": "F28_Firewall.cls",
"vs": [
26000,
27000,
30000,
31000,
32000,
33000,
34000,
26100
],
"line": "",
"text": "# Firewall configuration\\nfirewall --enabled\\n"
},
{
"cmd": "firewall",
"cls": "F28_Firewall.cls",
"vs": [
26000,
27000,
30000,
31000,
32000,
33000,
34000,
26100
],
"line": "--disable",
"text": "# Firewall configuration\\nfirewall --disabled\\n"
},
{
"cmd": "firewall",
"cls": "F28_Firewall.cls",
"vs": [
26000,
27000,
30000,
31000,
32000,
33000,
34000,
26100
],
"line": "--disabled",
"text": "# Firewall configuration\\nfirewall --disabled\\n"
},
{
"cmd": "firewall",
"cls": "F28_Firewall.cls",
"vs": [
26000,
27000,
30000,
31000,
32000,
33000,
34000,
26100
],
"line": "--enable",
"text": "# Firewall configuration\\nfirewall --enabled\\n"
},
{
"cmd": "firewall",
"cls": "F28_Firewall.cls",
"vs": [
26000,
27000,
30000,
31000,
32000,
33000,
34000,
26100
],
"line": "--enabled",
"text": "# Firewall configuration\\nfirewall --enabled\\n"
},
{
"cmd": "firewall",
"cls": "F28_Firewall.cls",
"vs": [
26000,
27000,
30000,
31000,
32000,
33000,
34000,
26100
],
"line": "--port=QX:tcp",
"text": "# Firewall configuration\\nfirewall --enabled --port=QX:tcp\\n"
},
{
"cmd": "firewall",
"cls": "F28_Firewall.cls",
"vs": [
26000,
27000,
30000,
31000,
32000,
33000,
34000,
26100
],
"line": "--trust=QX",
"text": "# Firewall configuration\\nfirewall --enabled --trust=QX\\n"
},
{
"cmd": "firewall",
"cls": "F28_Firewall.cls",
"vs": [
26000,
27000,
30000,
31000,
32000,
33000,
34000,
26100
],
"line": "--service=QX",
"text": "# Firewall configuration\\nfirewall --enabled --service=QX\\n"
},
{
"cmd": "firewall",
"cls": "F28_Firewall.cls",
"vs": [
26000,
27000,
30000,
31000,
32000,
33000,
34000,
26100
],
"line": "--ftp",
"text": "# Firewall configuration\\nfirewall --enabled --service=ftp\\n"
},
{
"cmd": "firewall",
"cls": "F28_Firewall.cls",
"vs": [
26000,
27000,
30000,
31000,
32000,
33000,
34000,
26100
],
"line": "--http",
"text": "# Firewall configuration\\nfirewall --enabled --service=http\\n"
},
{
"cmd": "firewall",
"cls": "F28_Firewall.cls",
"vs": [
26000,
27000,
30000,
31000,
32000,
33000,
34000,
26100
],
"line": "--smtp",
"text": "# Firewall configuration\\nfirewall --enabled --service=smtp\\n"
},
{
"cmd": "firewall",
"cls": "F28_Firewall.cls",
"vs": [
26000,
27000,
30000,
31000,
32000,
33000,
34000,
26100
],
"line": "--ssh",
"text": "# Firewall configuration\\nfirewall --enabled --service=ssh\\n"
},
{
"cmd": "firewall",
"cls": "F28_Firewall.cls",
"vs": [
26000,
27000,
30000,
31000,
32000,
33000,
34000,
26100
],
"line": "--telnet=QX",
"text": null
},
{
"cmd": "firewall",
"cls": "F28_Firewall.cls",
"vs": [
26000,
27000,
30000,
31000,
32000,
33000,
34000,
26100
],
"line": "--remove-service=QX",
"text": "# Firewall configuration\\nfirewall --enabled --remove-service=QX\\n"
},
{
"cmd": "firewall",
"cls": "F28_Firewall.cls",
"vs": [
26000,
27000,
30000,
31000,
32000,
33000,
34000,
26100
],
"line": "--use-system-defaults",
"text": "# Firewall configuration\\nfirewall --use-system-defaults\\n"
},
{
"cmd": "firewall",
"cls": "F28_Firewall.cls",
"vs": [
26000,
27000,
30000,
31000,
32000,
33000,
34000,
26100
],
"line": "--telnet",
"text": null
},
{
"cmd": "firewall",
"cls": "F28_Firewall.cls",
"vs": [
26000,
27000,
30000,
31000,
32000,
33000,
34000,
26100
],
"line": "--high=QX",
"text": null
},
{
"cmd": "firewall",
"cls": "F28_Firewall.cls",
"vs": [
26000,
27000,
30000,
31000,
32000,
33000,
34000,
26100
],
"line": "--medium=QX",
"text": null
},
{
"cmd": "firewall",
"cls": "F28_Firewall.cls",
"vs": [
26000,
27000,
30000,
31000,
32000,
33000,
34000,
26100
],
"line": "--port=ssh:tcp,telnet:tcp,smtp:tcp,http:tcp,ftp:tcp,imap:udp,99",
"text": "# Firewall configuration\\nfirewall --enabled --ssh --telnet --smtp --http --ftp --port=imap:udp,99:tcp\\n"
},
{
"cmd": "firewall",
"cls": "F28_Firewall.cls",
"vs": [
26000,
27000,
30000,
31000,
32000,
33000,
34000,
26100
],
"line": "--ssh --port=1:udp --trust=a --trust=b",
"text": "# Firewall configuration\\nfirewall --enabled --port=1:udp --trust=a,b --service=ssh\\n"
},
{
"cmd": "firewall",
"cls": "F28_Firewall.cls",
"vs": [
26000,
27000,
30000,
31000,
32000,
33000,
34000,
26100
],
"line": "--disabled --ssh",
"text": "# Firewall configuration\\nfirewall --disabled\\n"
},
{
"cmd": "firewall",
"cls": "F28_Firewall.cls",
"vs": [
26000,
27000,
30000,
31000,
32000,
33000,
34000,
26100
],
"line": "--service=a,b --remove-service=c,d --trust=t --port=5",
"text": "# Firewall configuration\\nfirewall --enabled --port=5:tcp --trust=t --service=a,b --remove-service=c,d\\n"
},
{
"cmd": "hmc",
"cls": "F28_Hmc.cls",
"vs": [
26000,
27000,
30000,
31000,
32000,
33000,
34000,
26100
],
"line": "",
"text": "# Use installation media via SE/HMC\\nhmc\\n"
},
{
"cmd": "hmc",
"cls": "F28_Hmc.cls",
"vs": [
26000,
27000,
30000,
31000,
32000,
33000,
34000,
26100
],
"line": "x",
"text": null
},
{
"cmd": "hmc",
"cls": "F28_Hmc.cls",
"vs": [
26000,
27000,
30000,
31000,
32000,
33000,
34000,
26100
],
"line": "--x",
"text": null
},
{
"cmd": "nvdimm",
"cls": "F28_Nvdimm.cls F28_NvdimmData.cls",
"vs": [
26000,
27000,
30000,
31000,
32000,
33000,
34000,
19100,
26100
],
"line": "use --namespace=n",
"text": "# NVDIMM devices setup\\nnvdimm use --namespace=n\\n\\n"
},
{
"cmd": "nvdimm",
"cls": "F28_Nvdimm.cls F28_NvdimmData.cls",
"vs": [
26000,
27000,
30000,
31000,
32000,
33000,
34000,
19100,
26100
],
"line": "use --namespace=n --namespace=QX",
"text": "# NVDIMM devices setup\\nnvdimm use --namespace=QX\\n\\n"
},
{
"cmd": "nvdimm",
"cls": "F28_Nvdimm.cls F28_NvdimmData.cls",
"vs": [
26000,
27000,
30000,
31000,
32000,
33000,
34000,
19100,
26100
],
"line": "use --namespace=n --blockdevs=QX",
"text": null
},
{
"cmd": "nvdimm",
"cls": "F28_Nvdimm.cls F28_NvdimmData.cls",
"vs": [
26000,
27000,
30000,
31000,
32000,
33000,
34000,
19100,
26100
],
"line": "use --namespace=n --mode=sector",
"text": "# NVDIMM devices setup\\nnvdimm use --namespace=n\\n\\n"
},
{
"cmd": "nvdimm",
"cls": "F28_Nvdimm.cls F28_NvdimmData.cls",
"vs": [
26000,
27000,
30000,
31000,
32000,
33000,
34000,
19100,
26100
],
"line": "use --namespace=n --sectorsize=42",
"text": "# NVDIMM devices setup\\nnvdimm use --namespace=n\\n\\n"
},
{
"cmd": "nvdimm",
"cls": "F28_Nvdimm.cls F28_NvdimmData.cls",
"vs": [
26000,
27000,
30000,
31000,
32000,
33000,
34000,
19100,
26100
],
"line": "reconfigure --namespace=n --mode=sector --sectorsize=512",
"text": "# NVDIMM devices setup\\nnvdimm reconfigure --namespace=n --mode=sector --sectorsize=512\\n\\n"
},
{
"cmd": "nvdimm",
"cls": "F28_Nvdimm.cls F28_NvdimmData.cls",
"vs": [
26000,
27000,
30000,
31000,
32000,
33000,
34000,
19100,
26100
],
"line": "reconfigure --namespace=n --mode=sector",
"text": null
},
{
"cmd": "nvdimm",
"cls": "F28_Nvdimm.cls F28_NvdimmData.cls",
"vs": [
26000,
27000,
30000,
31000,
32000,
33000,
34000,
19100,
26100
],
"line": "use --blockdevs=a,b",
"text": "# NVDIMM devices setup\\nnvdimm use --blockdevs=a,b\\n\\n"
},
{
"cmd": "nvdimm",
"cls": "F28_Nvdimm.cls F28_NvdimmData.cls",
"vs": [
26000,
27000,
30000,
31000,
32000,
33000,
34000,
19100,
26100
],
"line": "use --blockdevs=a,b --namespace=QX",
"text": null
},
{
"cmd": "raid",
"cls": "F29_Raid.cls F29_RaidData.cls",
"vs": [
27000,
30000,
31000,
32000,
33000,
34000
],
"line": "/x --device=1 --level=RAID1 raid.1 raid.2",
"text": "raid /x --device=1 --level=RAID1 raid.1 raid.2\\n"
},
{
"cmd": "raid",
"cls": "F29_Raid.cls F29_RaidData.cls",
"vs": [
27000,
30000,
31000,
32000,
33000,
34000
],
"line": "/x --device=1 --level=RAID1 raid.1 raid.2 --device=QX",
"text": "raid /x --device=QX --level=RAID1 raid.1 raid.2\\n"
},
{
"cmd": "raid",
"cls": "F29_Raid.cls F29_RaidData.cls",
"vs": [
27000,
30000,
31000,
32000,
33000,
34000
],
"line": "/x --device=1 --level=RAID1 raid.1 raid.2 --fstype=QX",
"text": "raid /x --device=1 --fstype=\\\"QX\\\" --level=RAID1 raid.1 raid.2\\n"
},
{
"cmd": "raid",
"cls": "F29_Raid.cls F29_RaidData.cls",
"vs": [
27000,
30000,
31000,
32000,
33000,
34000
],
"line": "/x --device=1 --level=RAID1 raid.1 raid.2 --level=RAID0",
"text": "raid /x --device=1 --level=RAID0 raid.1 raid.2\\n"
},
{
"cmd": "raid",
"cls": "F29_Raid.cls F29_RaidData.cls",
"vs": [
27000,
30000,
31000,
32000,
33000,
34000
],
"line": "/x --device=1 --level=RAID1 raid.1 raid.2 --level=0",
"text": "raid /x --device=1 --level=RAID0 raid.1 raid.2\\n"
},
{
"cmd": "raid",
"cls": "F29_Raid.cls F29_RaidData.cls",
"vs": [
27000,
30000,
31000,
32000,
33000,
34000
],
"line": "/x --device=1 --level=RAID1 raid.1 raid.2 --level=RAID1",
"text": "raid /x --device=1 --level=RAID1 raid.1 raid.2\\n"
},
{
"cmd": "raid",
"cls": "F29_Raid.cls F29_RaidData.cls",
"vs": [
27000,
30000,
31000,
32000,
33000,
34000
],
"line": "/x --device=1 --level=RAID1 raid.1 raid.2 --level=1",
"text": "raid /x --device=1 --level=RAID1 raid.1 raid.2\\n"
},
{
"cmd": "raid",
"cls": "F29_Raid.cls F29_RaidData.cls",
"vs": [
27000,
30000,
31000,
32000,
33000,
34000
],
"line": "/x --device=1 --level=RAID1 raid.1 raid.2 --level=RAID5",
"text": "raid /x --device=1 --level=RAID5 raid.1 raid.2\\n"
},
{
"cmd": "raid",
"cls": "F29_Raid.cls F29_RaidData.cls",
"vs": [
27000,
30000,
31000,
32000,
33000,
34000
],
"line": "/x --device=1 --level=RAID1 raid.1 raid.2 --level=5",
"text": "raid /x --device=1 --level=RAID5 raid.1 raid.2\\n"
},
{
"cmd": "raid",
"cls": "F29_Raid.cls F29_RaidData.cls",
"vs": [
27000,
30000,
31000,
32000,
33000,
34000
],
"line": "/x --device=1 --level=RAID1 raid.1 raid.2 --level=RAID6",
"text": "raid /x --device=1 --level=RAID6 raid.1 raid.2\\n"
},
{
"cmd": "raid",
"cls": "F29_Raid.cls F29_RaidData.cls",
"vs": [
27000,
30000,
31000,
32000,
33000,
34000
],
"line": "/x --device=1 --level=RAID1 raid.1 raid.2 --level=6",
"text": "raid /x --device=1 --level=RAID6 raid.1 raid.2\\n"
},
{
"cmd": "raid",
"cls": "F29_Raid.cls F29_RaidData.cls",
"vs": [
27000,
30000,
31000,
32000,
33000,
34000
],
"line": "/x --device=1 --level=RAID1 raid.1 raid.2 --level=RAID10",
"text": "raid /x --device=1 --level=RAID10 raid.1 raid.2\\n"
},
{
"cmd": "raid",
"cls": "F29_Raid.cls F29_RaidData.cls",
"vs": [
27000,
30000,
31000,
32000,
33000,
34000
],
"line": "/x --device=1 --level=RAID1 raid.1 raid.2 --level=10",
"text": "raid /x --device=1 --level=RAID10 raid.1 raid.2\\n"
},
{
"cmd": "raid",
"cls": "F29_Raid.cls F29_RaidData.cls",
"vs": [
27000,
30000,
31000,
32000,
33000,
34000
],
"line": "/x --device=1 --level=RAID1 raid.1 raid.2 --noformat",
"text": null
},
{
"cmd": "raid",
"cls": "F29_Raid.cls F29_RaidData.cls",
"vs": [
27000,
30000,
31000,
32000,
33000,
34000
],
"line": "/x --device=1 --level=RAID1 raid.1 raid.2 --spares=42",
"text": "raid /x --device=1 --level=RAID1 --spares=42 raid.1 raid.2\\n"
},
{
"cmd": "raid",
"cls": "F29_Raid.cls F29_RaidData.cls",
"vs": [
27000,
30000,
31000,
32000,
33000,
34000
],
"line": "/x --device=1 --level=RAID1 raid.1 raid.2 --useexisting",
"text": null
},
{
"cmd": "raid",
"cls": "F29_Raid.cls F29_RaidData.cls",
"vs": [
27000,
30000,
31000,
32000,
33000,
34000
],
"line": "/x --device=1 --level=RAID1 raid.1 raid.2 --fsoptions=QX",
"text": "raid /x --device=1 --level=RAID1 --fsoptions=\\\"QX\\\" raid.1 raid.2\\n"
},
{
"cmd": "raid",
"cls": "F29_Raid.cls F29_RaidData.cls",
"vs": [
27000,
30000,
31000,
32000,
33000,
34000
],
"line": "/x --device=1 --level=RAID1 raid.1 raid.2 --bytes-per-inode=QX",
"text": null
},
{
"cmd": "raid",
"cls": "F29_Raid.cls F29_RaidData.cls",
"vs": [
27000,
30000,
31000,
32000,
33000,
34000
],
"line": "/x --device=1 --level=RAID1 raid.1 raid.2 --fsprofile=QX",
"text": "raid /x --device=1 --level=RAID1 --fsprofile=\\\"QX\\\" raid.1 raid.2\\n"
},
{
"cmd": "raid",
"cls": "F29_Raid.cls F29_RaidData.cls",
"vs": [
27000,
30000,
31000,
32000,
33000,
34000
],
"line": "/x --device=1 --level=RAID1 raid.1 raid.2 --encrypted",
"text": "raid /x --device=1 --level=RAID1 --encrypted raid.1 raid.2\\n"
},
{
"cmd": "raid",
"cls": "F29_Raid.cls F29_RaidData.cls",
"vs": [
27000,
30000,
31000,
32000,
33000,
34000
],
"line": "/x --device=1 --level=RAID1 raid.1 raid.2 --passphrase=QX",
"text": "raid /x --device=1 --level=RAID1 raid.1 raid.2\\n"
},
{
"cmd": "raid",
"cls": "F29_Raid.cls F29_RaidData.cls",
"vs": [
27000,
30000,
31000,
32000,
33000,
34000
],
"line": "/x --device=1 --level=RAID1 raid.1 raid.2 --escrowcert=QX",
"text": "raid /x --device=1 --level=RAID1 raid.1 raid.2\\n"
},
{
"cmd": "raid",
"cls": "F29_Raid.cls F29_RaidData.cls",
"vs": [
27000,
30000,
31000,
32000,
33000,
34000
],
"line": "/x --device=1 --level=RAID1 raid.1 raid.2 --backuppassphrase",
"text": "raid /x --device=1 --level=RAID1 raid.1 raid.2\\n"
},
{
"cmd": "raid",
"cls": "F29_Raid.cls F29_RaidData.cls",
"vs": [
27000,
30000,
31000,
32000,
33000,
34000
],
"line": "/x --device=1 --level=RAID1 raid.1 raid.2 --level=RAID4",
"text": "raid /x --device=1 --level=RAID4 raid.1 raid.2\\n"
},
{
"cmd": "raid",
"cls": "F29_Raid.cls F29_RaidData.cls",
"vs": [
27000,
30000,
31000,
32000,
33000,
34000
],
"line": "/x --device=1 --level=RAID1 raid.1 raid.2 --level=4",
"text": "raid /x --device=1 --level=RAID4 raid.1 raid.2\\n"
},
{
"cmd": "raid",
"cls": "F29_Raid.cls F29_RaidData.cls",
"vs": [
27000,
30000,
31000,
32000,
33000,
34000
],
"line": "/x --device=1 --level=RAID1 raid.1 raid.2 --label=QX",
"text": "raid /x --device=1 --level=RAID1 --label=QX raid.1 raid.2\\n"
},
{
"cmd": "raid",
"cls": "F29_Raid.cls F29_RaidData.cls",
"vs": [
27000,
30000,
31000,
32000,
33000,
34000
],
"line": "/x --device=1 --level=RAID1 raid.1 raid.2 --cipher=QX",
"text": "raid /x --device=1 --level=RAID1 raid.1 raid.2\\n"
},
{
"cmd": "raid",
"cls": "F29_Raid.cls F29_RaidData.cls",
"vs": [
27000,
30000,
31000,
32000,
33000,
34000
],
"line": "/x --device=1 --level=RAID1 raid.1 raid.2 --mkfsoptions=QX",
"text": "raid /x --device=1 --level=RAID1 --mkfsoptions=\\\"QX\\\" raid.1 raid.2\\n"
},
{
"cmd": "raid",
"cls": "F29_Raid.cls F29_RaidData.cls",
"vs": [
27000,
30000,
31000,
32000,
33000,
34000
],
"line": "/x --device=1 --level=RAID1 raid.1 raid.2 --chunksize=42",
"text": "raid /x --device=1 --level=RAID1 --chunksize=42 raid.1 raid.2\\n"
},
{
"cmd": "raid",
"cls": "F29_Raid.cls F29_RaidData.cls",
"vs": [
27000,
30000,
31000,
32000,
33000,
34000
],
"line": "/x --device=1 --level=RAID1 raid.1 raid.2 --luks-version=QX",
"text": "raid /x --device=1 --level=RAID1 raid.1 raid.2\\n"
},
{
"cmd": "raid",
"cls": "F29_Raid.cls F29_RaidData.cls",
"vs": [
27000,
30000,
31000,
32000,
33000,
34000
],
"line": "/x --device=1 --level=RAID1 raid.1 raid.2 --pbkdf=QX",
"text": "raid /x --device=1 --level=RAID1 raid.1 raid.2\\n"
},
{
"cmd": "raid",
"cls": "F29_Raid.cls F29_RaidData.cls",
"vs": [
27000,
30000,
31000,
32000,
33000,
34000
],
"line": "/x --device=1 --level=RAID1 raid.1 raid.2 --pbkdf-memory=42",
"text": "raid /x --device=1 --level=RAID1 raid.1 raid.2\\n"
},
{
"cmd": "raid",
"cls": "F29_Raid.cls F29_RaidData.cls",
"vs": [
27000,
30000,
31000,
32000,
33000,
34000
],
"line": "/x --device=1 --level=RAID1 raid.1 raid.2 --pbkdf-time=42",
"text": "raid /x --device=1 --level=RAID1 raid.1 raid.2\\n"
},
{
"cmd": "raid",
"cls": "F29_Raid.cls F29_RaidData.cls",
"vs": [
27000,
30000,
31000,
32000,
33000,
34000
],
"line": "/x --device=1 --level=RAID1 raid.1 raid.2 --pbkdf-iterations=42",
"text": "raid /x --device=1 --level=RAID1 raid.1 raid.2\\n"
},
{
"cmd": "raid",
"cls": "F29_Raid.cls F29_RaidData.cls",
"vs": [
27000,
30000,
31000,
32000,
33000,
34000
],
"line": "/x --device=1 --level=RAID1 raid.1 raid.2 --bytes-per-inode=42",
"text": null
},
{
"cmd": "raid",
"cls": "F29_Raid.cls F29_RaidData.cls",
"vs": [
27000,
30000,
31000,
32000,
33000,
34000
],
"line": "/x --device=1 --level=RAID1 raid.1 raid.2 --encrypted --passphrase=QX",
"text": "raid /x --device=1 --level=RAID1 --encrypted --passphrase=\\\"QX\\\" raid.1 raid.2\\n"
},
{
"cmd": "raid",
"cls": "F29_Raid.cls F29_RaidData.cls",
"vs": [
27000,
30000,
31000,
32000,
33000,
34000
],
"line": "/x --device=1 --level=RAID1 raid.1 raid.2 --encrypted --escrowcert=QX",
"text": "raid /x --device=1 --level=RAID1 --encrypted --escrowcert=\\\"QX\\\" raid.1 raid.2\\n"
},
{
"cmd": "raid",
"cls": "F29_Raid.cls F29_RaidData.cls",
"vs": [
27000,
30000,
31000,
32000,
33000,
34000
],
"line": "/x --device=1 --level=RAID1 raid.1 raid.2 --encrypted --escrowcert=c --backuppassphrase",
"text": "raid /x --device=1 --level=RAID1 --encrypted --escrowcert=\\\"c\\\" --backuppassphrase raid.1 raid.2\\n"
},
{
"cmd": "raid",
"cls": "F29_Raid.cls F29_RaidData.cls",
"vs": [
27000,
30000,
31000,
32000,
33000,
34000
],
"line": "/x --device=1 --level=RAID1 raid.1 raid.2 --encrypted --cipher=QX",
"text": "raid /x --device=1 --level=RAID1 --encrypted --cipher=\\\"QX\\\" raid.1 raid.2\\n"
},
{
"cmd": "raid",
"cls": "F29_Raid.cls F29_RaidData.cls",
"vs": [
27000,
30000,
31000,
32000,
33000,
34000
],
"line": "/x --device=1 --level=RAID1 raid.1 raid.2 --encrypted --luks-version=QX",
"text": "raid /x --device=1 --level=RAID1 --encrypted --luks-version=QX raid.1 raid.2\\n"
},
{
"cmd": "raid",
"cls": "F29_Raid.cls F29_RaidData.cls",
"vs": [
27000,
30000,
31000,
32000,
33000,
34000
],
"line": "/x --device=1 --level=RAID1 raid.1 raid.2 --encrypted --pbkdf=QX",
"text": "raid /x --device=1 --level=RAID1 --encrypted --pbkdf=QX raid.1 raid.2\\n"
},
{
"cmd": "raid",
"cls": "F29_Raid.cls F29_RaidData.cls",
"vs": [
27000,
30000,
31000,
32000,
33000,
34000
],
"line": "/x --device=1 --level=RAID1 raid.1 raid.2 --encrypted --pbkdf-memory=42",
"text": "raid /x --device=1 --level=RAID1 --encrypted --pbkdf-memory=42 raid.1 raid.2\\n"
},
{
"cmd": "raid",
"cls": "F29_Raid.cls F29_RaidData.cls",
"vs": [
27000,
30000,
31000,
32000,
33000,
34000
],
"line": "/x --device=1 --level=RAID1 raid.1 raid.2 --encrypted --pbkdf-time=42",
"text": "raid /x --device=1 --level=RAID1 --encrypted --pbkdf-time=42 raid.1 raid.2\\n"
},
{
"cmd": "raid",
"cls": "F29_Raid.cls F29_RaidData.cls",
"vs": [
27000,
30000,
31000,
32000,
33000,
34000
],
"line": "/x --device=1 --level=RAID1 raid.1 raid.2 --encrypted --pbkdf-iterations=42",
"text": "raid /x --device=1 --level=RAID1 --encrypted --pbkdf-iterations=42 raid.1 raid.2\\n"
},
{
"cmd": "raid",
"cls": "F29_Raid.cls F29_RaidData.cls",
"vs": [
27000,
30000,
31000,
32000,
33000,
34000
],
"line": "/x --device=1 --level=RAID1 raid.1 raid.2 raid.3 --spares=1 --fstype=ext4 --fsoptions=o --fsprofile=f --encrypted",
"text": "raid /x --device=1 --fstype=\\\"ext4\\\" --level=RAID1 --spares=1 --fsoptions=\\\"o\\\" --fsprofile=\\\"f\\\" --encrypted raid.1 raid.2 raid.3\\n"
},
{
"cmd": "raid",
"cls": "F29_Raid.cls F29_RaidData.cls",
"vs": [
27000,
30000,
31000,
32000,
33000,
34000
],
"line": "/x --device=1 --noformat",
"text": "raid /x --device=1 --noformat --useexisting\\n"
},
{
"cmd": "raid",
"cls": "F29_Raid.cls F29_RaidData.cls",
"vs": [
27000,
30000,
31000,
32000,
33000,
34000
],
"line": "/x --device=1 --noformat --fstype=ext4",
"text": "raid /x --device=1 --fstype=\\\"ext4\\\" --noformat --useexisting\\n"
},
{
"cmd": "raid",
"cls": "F29_Raid.cls F29_RaidData.cls",
"vs": [
27000,
30000,
31000,
32000,
33000,
34000
],
"line": "/x --device=1 --noformat --label=QX",
"text": "raid /x --device=1 --noformat --useexisting --label=QX\\n"
},
{
"cmd": "raid",
"cls": "F29_Raid.cls F29_RaidData.cls",
"vs": [
27000,
30000,
31000,
32000,
33000,
34000
],
"line": "/x --device=1 --useexisting",
"text": "raid /x --device=1 --useexisting\\n"
},
{
"cmd": "raid",
"cls": "F29_Raid.cls F29_RaidData.cls",
"vs": [
27000,
30000,
31000,
32000,
33000,
34000
],
"line": "/x --device=1 --useexisting --fstype=ext4",
"text": "raid /x --device=1 --fstype=\\\"ext4\\\" --useexisting\\n"
},
{
"cmd": "raid",
"cls": "F29_Raid.cls F29_RaidData.cls",
"vs": [
27000,
30000,
31000,
32000,
33000,
34000
],
"line": "/x --device=1 --useexisting --label=QX",
"text": "raid /x --device=1 --useexisting --label=QX\\n"
},
{
"cmd": "raid",
"cls": "F29_Raid.cls F29_RaidData.cls",
"vs": [
27000,
30000,
31000,
32000,
33000,
34000
],
"line": "/x --device=1 --level=RAID1 raid.1 raid.2 raid.3",
"text": "raid /x --device=1 --level=RAID1 raid.1 raid.2 raid.3\\n"
},
{
"cmd": "raid",
"cls": "F29_Raid.cls F29_RaidData.cls",
"vs": [
27000,
30000,
31000,
32000,
33000,
34000
],
"line": "/x --device=1 --level=RAID1 raid.1 raid.2 raid.3 --device=md7",
"text": "raid /x --device=7 --level=RAID1 raid.1 raid.2 raid.3\\n"
},
{
"cmd": "raid",
"cls": "F29_Raid.cls F29_RaidData.cls",
"vs": [
27000,
30000,
31000,
32000,
33000,
34000
],
"line": "/x --device=1 --level=RAID1 raid.1 raid.2 raid.3 --device=data",
"text": "raid /x --device=data --level=RAID1 raid.1 raid.2 raid.3\\n"
},
{
"cmd": "raid",
"cls": "F29_Raid.cls F29_RaidData.cls",
"vs": [
27000,
30000,
31000,
32000,
33000,
34000
],
"line": "/x --device=1 --level=RAID1 raid.1 raid.2 raid.3 --level=0",
"text": "raid /x --device=1 --level=RAID0 raid.1 raid.2 raid.3\\n"
},
{
"cmd": "raid",
"cls": "F29_Raid.cls F29_RaidData.cls",
"vs": [
27000,
30000,
31000,
32000,
33000,
34000
],
"line": "/x --device=1 --level=RAID1 raid.1 raid.2 raid.3 --level=RAID5",
"text": "raid /x --device=1 --level=RAID5 raid.1 raid.2 raid.3\\n"
},
{
"cmd": "raid",
"cls": "F29_Raid.cls F29_RaidData.cls",
"vs": [
27000,
30000,
31000,
32000,
33000,
34000
],
"line": "/x --device=1 --level=RAID1 raid.1 raid.2 raid.3 --level=raid6",
"text": "raid /x --device=1 --level=RAID6 raid.1 raid.2 raid.3\\n"
},
{
"cmd": "raid",
"cls": "F29_Raid.cls F29_RaidData.cls",
"vs": [
27000,
30000,
31000,
32000,
33000,
34000
],
"line": "/x --device=1 --level=RAID1 raid.1 raid.2 raid.3 --level=10",
"text": "raid /x --device=1 --level=RAID10 raid.1 raid.2 raid.3\\n"
},
{
"cmd": "raid",
"cls": "F29_Raid.cls F29_RaidData.cls",
"vs": [
27000,
30000,
31000,
32000,
33000,
34000
],
"line": "/x --device=1 --level=RAID1 raid.1 raid.2 raid.3 --level=linear",
"text": null
},
{
"cmd": "raid",
"cls": "F29_Raid.cls F29_RaidData.cls",
"vs": [
27000,
30000,
31000,
32000,
33000,
34000
],
"line": "/x --device=1 --level=RAID1 raid.1 raid.2 raid.3 --spares=1",
"text": "raid /x --device=1 --level=RAID1 --spares=1 raid.1 raid.2 raid.3\\n"
},
{
"cmd": "raid",
"cls": "F29_Raid.cls F29_RaidData.cls",
"vs": [
27000,
30000,
31000,
32000,
33000,
34000
],
"line": "/x --device=1 --level=RAID1 raid.1 raid.2 raid.3 --spares=2",
"text": "raid /x --device=1 --level=RAID1 --spares=2 raid.1 raid.2 raid.3\\n"
},
{
"cmd": "updates",
"cls": "F34_Updates.cls",
"vs": [
34000
],
"line": "U",
"text": "updates U\\n"
},
{
"cmd": "firewall",
"cls": "FC3_Firewall.cls",
"vs": [
5000,
6000,
1000,
2000,
3000,
4000,
900,
1100,
4100
],
"line": "",
"text": "# Firewall configuration\\nfirewall --enabled\\n"
},
{
"cmd": "firewall",
"cls": "FC3_Firewall.cls",
"vs": [
5000,
6000,
1000,
2000,
3000,
4000,
900,
1100,
4100
],
"line": "--disable",
"text": "# Firewall configuration\\nfirewall --disabled\\n"
},
{
"cmd": "firewall",
"cls": "FC3_Firewall.cls",
"vs": [
5000,
6000,
1000,
2000,
3000,
4000,
900,
1100,
4100
],
"line": "--disabled",
"text": "# Firewall configuration\\nfirewall --disabled\\n"
},
{
"cmd": "firewall",
"cls": "FC3_Firewall.cls",
"vs": [
5000,
6000,
1000,
2000,
3000,
4000,
900,
1100,
4100
],
"line": "--enable",
"text": "# Firewall configuration\\nfirewall --enabled\\n"
},
{
"cmd": "firewall",
"cls": "FC3_Firewall.cls",
"vs": [
5000,
6000,
1000,
2000,
3000,
4000,
900,
1100,
4100
],
"line": "--enabled",
"text": "# Firewall configuration\\nfirewall --enabled\\n"
},
{
"cmd": "firewall",
"cls": "FC3_Firewall.cls",
"vs": [
5000,
6000,
1000,
2000,
3000,
4000,
900,
1100,
4100
],
"line": "--port=QX:tcp",
"text": "# Firewall configuration\\nfirewall --enabled --port=QX:tcp\\n"
},
{
"cmd": "firewall",
"cls": "FC3_Firewall.cls",
"vs": [
5000,
6000,
1000,
2000,
3000,
4000,
900,
1100,
4100
],
"line": "--trust=QX",
"text": "# Firewall configuration\\nfirewall --enabled --trust=QX\\n"
},
{
"cmd": "firewall",
"cls": "FC3_Firewall.cls",
"vs": [
5000,
6000,
1000,
2000,
3000,
4000,
900,
1100,
4100
],
"line": "--service=QX",
"text": null
},
{
"cmd": "firewall",
"cls": "FC3_Firewall.cls",
"vs": [
5000,
6000,
1000,
2000,
3000,
4000,
900,
1100,
4100
],
"line": "--ftp",
"text": "# Firewall configuration\\nfirewall --enabled --port=21:tcp\\n"
},
{
"cmd": "firewall",
"cls": "FC3_Firewall.cls",
"vs": [
5000,
6000,
1000,
2000,
3000,
4000,
900,
1100,
4100
],
"line": "--http",
"text": "# Firewall configuration\\nfirewall --enabled --port=80:tcp,443:tcp\\n"
},
{
"cmd": "firewall",
"cls": "FC3_Firewall.cls",
"vs": [
5000,
6000,
1000,
2000,
3000,
4000,
900,
1100,
4100
],
"line": "--smtp",
"text": "# Firewall configuration\\nfirewall --enabled --port=25:tcp\\n"
},
{
"cmd": "firewall",
"cls": "FC3_Firewall.cls",
"vs": [
5000,
6000,
1000,
2000,
3000,
4000,
900,
1100,
4100
],
"line": "--ssh",
"text": "# Firewall configuration\\nfirewall --enabled --port=22:tcp\\n"
},
{
"cmd": "firewall",
"cls": "FC3_Firewall.cls",
"vs": [
5000,
6000,
1000,
2000,
3000,
4000,
900,
1100,
4100
],
"line": "--telnet=QX",
"text": null
},
{
"cmd": "firewall",
"cls": "FC3_Firewall.cls",
"vs": [
5000,
6000,
1000,
2000,
3000,
4000,
900,
1100,
4100
],
"line": "--remove-service=QX",
"text": null
},
{
"cmd": "firewall",
"cls": "FC3_Firewall.cls",
"vs": [
5000,
6000,
1000,
2000,
3000,
4000,
900,
1100,
4100
],
"line": "--use-system-defaults",
"text": null
},
{
"cmd": "firewall",
"cls": "FC3_Firewall.cls",
"vs": [
5000,
6000,
1000,
2000,
3000,
4000,
900,
1100,
4100
],
"line": "--telnet",
"text": "# Firewall configuration\\nfirewall --enabled --port=23:tcp\\n"
},
{
"cmd": "firewall",
"cls": "FC3_Firewall.cls",
"vs": [
5000,
6000,
1000,
2000,
3000,
4000,
900,
1100,
4100
],
"line": "--high=QX",
"text": "# Firewall configuration\\nfirewall --enabled\\n"
},
{
"cmd": "firewall",
"cls": "FC3_Firewall.cls",
"vs": [
5000,
6000,
1000,
2000,
3000,
4000,
900,
1100,
4100
],
"line": "--medium=QX",
"text": "# Firewall configuration\\nfirewall --enabled\\n"
},
{
"cmd": "firewall",
"cls": "FC3_Firewall.cls",
"vs": [
5000,
6000,
1000,
2000,
3000,
4000,
900,
1100,
4100
],
"line": "--port=ssh:tcp,telnet:tcp,smtp:tcp,http:tcp,ftp:tcp,imap:udp,99",
"text": "# Firewall configuration\\nfirewall --enabled --ssh --telnet --smtp --http --ftp --port=imap:udp,99:tcp\\n"
},
{
"cmd": "firewall",
"cls": "FC3_Firewall.cls",
"vs": [
5000,
6000,
1000,
2000,
3000,
4000,
900,
1100,
4100
],
"line": "--ssh --port=1:udp --trust=a --trust=b",
"text": "# Firewall configuration\\nfirewall --enabled --port=22:tcp,1:udp --trust=a,b\\n"
},
{
"cmd": "firewall",
"cls": "FC3_Firewall.cls",
"vs": [
5000,
6000,
1000,
2000,
3000,
4000,
900,
1100,
4100
],
"line": "--disabled --ssh",
"text": "# Firewall configuration\\nfirewall --disabled\\n"
},
{
"cmd": "firewall",
"cls": "FC3_Firewall.cls",
"vs": [
5000,
6000,
1000,
2000,
3000,
4000,
900,
1100,
4100
],
"line": "--service=a,b --remove-service=c,d --trust=t --port=5",
"text": null
},
{
"cmd": "raid",
"cls": "F7_Raid.cls F7_RaidData.cls",
"vs": [
5000,
6000
],
"line": "/x --device=1 --level=RAID1 raid.1 raid.2",
"text": "raid /x --device=1 --level=RAID1 --bytes-per-inode=4096 raid.1 raid.2\\n"
},
{
"cmd": "raid",
"cls": "F7_Raid.cls F7_RaidData.cls",
"vs": [
5000,
6000
],
"line": "/x --device=1 --level=RAID1 raid.1 raid.2 --device=QX",
"text": null
},
{
"cmd": "raid",
"cls": "F7_Raid.cls F7_RaidData.cls",
"vs": [
5000,
6000
],
"line": "/x --device=1 --level=RAID1 raid.1 raid.2 --fstype=QX",
"text": "raid /x --device=1 --fstype=\\\"QX\\\" --level=RAID1 --bytes-per-inode=4096 raid.1 raid.2\\n"
},
{
"cmd": "raid",
"cls": "F7_Raid.cls F7_RaidData.cls",
"vs": [
5000,
6000
],
"line": "/x --device=1 --level=RAID1 raid.1 raid.2 --level=RAID0",
"text": "raid /x --device=1 --level=RAID0 --bytes-per-inode=4096 raid.1 raid.2\\n"
},
{
"cmd": "raid",
"cls": "F7_Raid.cls F7_RaidData.cls",
"vs": [
5000,
6000
],
"line": "/x --device=1 --level=RAID1 raid.1 raid.2 --level=0",
"text": "raid /x --device=1 --level=RAID0 --bytes-per-inode=4096 raid.1 raid.2\\n"
},
{
"cmd": "raid",
"cls": "F7_Raid.cls F7_RaidData.cls",
"vs": [
5000,
6000
],
"line": "/x --device=1 --level=RAID1 raid.1 raid.2 --level=RAID1",
"text": "raid /x --device=1 --level=RAID1 --bytes-per-inode=4096 raid.1 raid.2\\n"
},
{
"cmd": "raid",
"cls": "F7_Raid.cls F7_RaidData.cls",
"vs": [
5000,
6000
],
"line": "/x --device=1 --level=RAID1 raid.1 raid.2 --level=1",
"text": "raid /x --device=1 --level=RAID1 --bytes-per-inode=4096 raid.1 raid.2\\n"
},
{
"cmd": "raid",
"cls": "F7_Raid.cls F7_RaidData.cls",
"vs": [
5000,
6000
],
"line": "/x --device=1 --level=RAID1 raid.1 raid.2 --level=RAID5",
"text": "raid /x --device=1 --level=RAID5 --bytes-per-inode=4096 raid.1 raid.2\\n"
},
{
"cmd": "raid",
"cls": "F7_Raid.cls F7_RaidData.cls",
"vs": [
5000,
6000
],
"line": "/x --device=1 --level=RAID1 raid.1 raid.2 --level=5",
"text": "raid /x --device=1 --level=RAID5 --bytes-per-inode=4096 raid.1 raid.2\\n"
},
{
"cmd": "raid",
"cls": "F7_Raid.cls F7_RaidData.cls",
"vs": [
5000,
6000
],
"line": "/x --device=1 --level=RAID1 raid.1 raid.2 --level=RAID6",
"text": "raid /x --device=1 --level=RAID6 --bytes-per-inode=4096 raid.1 raid.2\\n"
},
{
"cmd": "raid",
"cls": "F7_Raid.cls F7_RaidData.cls",
"vs": [
5000,
6000
],
"line": "/x --device=1 --level=RAID1 raid.1 raid.2 --level=6",
"text": "raid /x --device=1 --level=RAID6 --bytes-per-inode=4096 raid.1 raid.2\\n"
},
{
"cmd": "raid",
"cls": "F7_Raid.cls F7_RaidData.cls",
"vs": [
5000,
6000
],
"line": "/x --device=1 --level=RAID1 raid.1 raid.2 --level=RAID10",
"text": "raid /x --device=1 --level=RAID10 --bytes-per-inode=4096 raid.1 raid.2\\n"
},
{
"cmd": "raid",
"cls": "F7_Raid.cls F7_RaidData.cls",
"vs": [
5000,
6000
],
"line": "/x --device=1 --level=RAID1 raid.1 raid.2 --level=10",
"text": "raid /x --device=1 --level=RAID10 --bytes-per-inode=4096 raid.1 raid.2\\n"
},
{
"cmd": "raid",
"cls": "F7_Raid.cls F7_RaidData.cls",
"vs": [
5000,
6000
],
"line": "/x --device=1 --level=RAID1 raid.1 raid.2 --noformat",
"text": null
},
{
"cmd": "raid",
"cls": "F7_Raid.cls F7_RaidData.cls",
"vs": [
5000,
6000
],
"line": "/x --device=1 --level=RAID1 raid.1 raid.2 --spares=42",
"text": "raid /x --device=1 --level=RAID1 --spares=42 --bytes-per-inode=4096 raid.1 raid.2\\n"
},
{
"cmd": "raid",
"cls": "F7_Raid.cls F7_RaidData.cls",
"vs": [
5000,
6000
],
"line": "/x --device=1 --level=RAID1 raid.1 raid.2 --useexisting",
"text": null
},
{
"cmd": "raid",
"cls": "F7_Raid.cls F7_RaidData.cls",
"vs": [
5000,
6000
],
"line": "/x --device=1 --level=RAID1 raid.1 raid.2 --fsoptions=QX",
"text": "raid /x --device=1 --level=RAID1 --fsoptions=\\\"QX\\\" --bytes-per-inode=4096 raid.1 raid.2\\n"
},
{
"cmd": "raid",
"cls": "F7_Raid.cls F7_RaidData.cls",
"vs": [
5000,
6000
],
"line": "/x --device=1 --level=RAID1 raid.1 raid.2 --bytes-per-inode=QX",
"text": null
},
{
"cmd": "raid",
"cls": "F7_Raid.cls F7_RaidData.cls",
"vs": [
5000,
6000
],
"line": "/x --device=1 --level=RAID1 raid.1 raid.2 --fsprofile=QX",
"text": null
},
{
"cmd": "raid",
"cls": "F7_Raid.cls F7_RaidData.cls",
"vs": [
5000,
6000
],
"line": "/x --device=1 --level=RAID1 raid.1 raid.2 --encrypted",
"text": null
},
{
"cmd": "raid",
"cls": "F7_Raid.cls F7_RaidData.cls",
"vs": [
5000,
6000
],
"line": "/x --device=1 --level=RAID1 raid.1 raid.2 --passphrase=QX",
"text": null
},
{
"cmd": "raid",
"cls": "F7_Raid.cls F7_RaidData.cls",
"vs": [
5000,
6000
],
"line": "/x --device=1 --level=RAID1 raid.1 raid.2 --escrowcert=QX",
"text": null
},
{
"cmd": "raid",
"cls": "F7_Raid.cls F7_RaidData.cls",
"vs": [
5000,
6000
],
"line": "/x --device=1 --level=RAID1 raid.1 raid.2 --backuppassphrase",
"text": null
},
{
"cmd": "raid",
"cls": "F7_Raid.cls F7_RaidData.cls",
"vs": [
5000,
6000
],
"line": "/x --device=1 --level=RAID1 raid.1 raid.2 --level=RAID4",
"text": null
},
{
"cmd": "raid",
"cls": "F7_Raid.cls F7_RaidData.cls",
"vs": [
5000,
6000
],
"line": "/x --device=1 --level=RAID1 raid.1 raid.2 --level=4",
"text": null
},
{
"cmd": "raid",
"cls": "F7_Raid.cls F7_RaidData.cls",
"vs": [
5000,
6000
],
"line": "/x --device=1 --level=RAID1 raid.1 raid.2 --label=QX",
"text": null
},
{
"cmd": "raid",
"cls": "F7_Raid.cls F7_RaidData.cls",
"vs": [
5000,
6000
],
"line": "/x --device=1 --level=RAID1 raid.1 raid.2 --cipher=QX",
"text": null
},
{
"cmd": "raid",
"cls": "F7_Raid.cls F7_RaidData.cls",
"vs": [
5000,
6000
],
"line": "/x --device=1 --level=RAID1 raid.1 raid.2 --mkfsoptions=QX",
"text": null
},
{
"cmd": "raid",
"cls": "F7_Raid.cls F7_RaidData.cls",
"vs": [
5000,
6000
],
"line": "/x --device=1 --level=RAID1 raid.1 raid.2 --chunksize=42",
"text": null
},
{
"cmd": "raid",
"cls": "F7_Raid.cls F7_RaidData.cls",
"vs": [
5000,
6000
],
"line": "/x --device=1 --level=RAID1 raid.1 raid.2 --luks-version=QX",
"text": null
},
{
"cmd": "raid",
"cls": "F7_Raid.cls F7_RaidData.cls",
"vs": [
5000,
6000
],
"line": "/x --device=1 --level=RAID1 raid.1 raid.2 --pbkdf=QX",
"text": null
},
{
"cmd": "raid",
"cls": "F7_Raid.cls F7_RaidData.cls",
"vs": [
5000,
6000
],
"line": "/x --device=1 --level=RAID1 raid.1 raid.2 --pbkdf-memory=42",
"text": null
},
{
"cmd": "raid",
"cls": "F7_Raid.cls F7_RaidData.cls",
"vs": [
5000,
6000
],
"line": "/x --device=1 --level=RAID1 raid.1 raid.2 --pbkdf-time=42",
"text": null
},
{
"cmd": "raid",
"cls": "F7_Raid.cls F7_RaidData.cls",
"vs": [
5000,
6000
],
"line": "/x --device=1 --level=RAID1 raid.1 raid.2 --pbkdf-iterations=42",
"text": null
},
{
"cmd": "raid",
"cls": "F7_Raid.cls F7_RaidData.cls",
"vs": [
5000,
6000
],
"line": "/x --device=1 --level=RAID1 raid.1 raid.2 --bytes-per-inode=42",
"text": "raid /x --device=1 --level=RAID1 --bytes-per-inode=42 raid.1 raid.2\\n"
},
{
"cmd": "raid",
"cls": "F7_Raid.cls F7_RaidData.cls",
"vs": [
5000,
6000
],
"line": "/x --device=1 --level=RAID1 raid.1 raid.2 --encrypted --passphrase=QX",
"text": null
},
{
"cmd": "raid",
"cls": "F7_Raid.cls F7_RaidData.cls",
"vs": [
5000,
6000
],
"line": "/x --device=1 --level=RAID1 raid.1 raid.2 --encrypted --escrowcert=QX",
"text": null
},
{
"cmd": "raid",
"cls": "F7_Raid.cls F7_RaidData.cls",
"vs": [
5000,
6000
],
"line": "/x --device=1 --level=RAID1 raid.1 raid.2 --encrypted --escrowcert=c --backuppassphrase",
"text": null
},
{
"cmd": "raid",
"cls": "F7_Raid.cls F7_RaidData.cls",
"vs": [
5000,
6000
],
"line": "/x --device=1 --level=RAID1 raid.1 raid.2 --encrypted --cipher=QX",
"text": null
},
{
"cmd": "raid",
"cls": "F7_Raid.cls F7_RaidData.cls",
"vs": [
5000,
6000
],
"line": "/x --device=1 --level=RAID1 raid.1 raid.2 --encrypted --luks-version=QX",
"text": null
},
{
"cmd": "raid",
"cls": "F7_Raid.cls F7_RaidData.cls",
"vs": [
5000,
6000
],
"line": "/x --device=1 --level=RAID1 raid.1 raid.2 --encrypted --pbkdf=QX",
"text": null
},
{
"cmd": "raid",
"cls": "F7_Raid.cls F7_RaidData.cls",
"vs": [
5000,
6000
],
"line": "/x --device=1 --level=RAID1 raid.1 raid.2 --encrypted --pbkdf-memory=42",
"text": null
},
{
"cmd": "raid",
"cls": "F7_Raid.cls F7_RaidData.cls",
"vs": [
5000,
6000
],
"line": "/x --device=1 --level=RAID1 raid.1 raid.2 --encrypted --pbkdf-time=42",
"text": null
},
{
"cmd": "raid",
"cls": "F7_Raid.cls F7_RaidData.cls",
"vs": [
5000,
6000
],
"line": "/x --device=1 --level=RAID1 raid.1 raid.2 --encrypted --pbkdf-iterations=42",
"text": null
},
{
"cmd": "raid",
"cls": "F7_Raid.cls F7_RaidData.cls",
"vs": [
5000,
6000
],
"line": "/x --device=1 --level=RAID1 raid.1 raid.2 raid.3 --spares=1 --fstype=ext4 --fsoptions=o --fsprofile=f --encrypted",
"text": null
},
{
"cmd": "raid",
"cls": "F7_Raid.cls F7_RaidData.cls",
"vs": [
5000,
6000
],
"line": "/x --device=1 --noformat",
"text": "raid /x --device=1 --noformat --useexisting --bytes-per-inode=4096\\n"
},
{
"cmd": "raid",
"cls": "F7_Raid.cls F7_RaidData.cls",
"vs": [
5000,
6000
],
"line": "/x --device=1 --noformat --fstype=ext4",
"text": "raid /x --device=1 --fstype=\\\"ext4\\\" --noformat --useexisting --bytes-per-inode=4096\\n"
},
{
"cmd": "raid",
"cls": "F7_Raid.cls F7_RaidData.cls",
"vs": [
5000,
6000
],
"line": "/x --device=1 --noformat --label=QX",
"text": null
},
{
"cmd": "raid",
"cls": "F7_Raid.cls F7_RaidData.cls",
"vs": [
5000,
6000
],
"line": "/x --device=1 --useexisting",
"text": "raid /x --device=1 --useexisting --bytes-per-inode=4096\\n"
},
{
"cmd": "raid",
"cls": "F7_Raid.cls F7_RaidData.cls",
"vs": [
5000,
6000
],
"line": "/x --device=1 --useexisting --fstype=ext4",
"text": "raid /x --device=1 --fstype=\\\"ext4\\\" --useexisting --bytes-per-inode=4096\\n"
},
{
"cmd": "raid",
"cls": "F7_Raid.cls F7_RaidData.cls",
"vs": [
5000,
6000
],
"line": "/x --device=1 --useexisting --label=QX",
"text": null
},
{
"cmd": "raid",
"cls": "F7_Raid.cls F7_RaidData.cls",
"vs": [
5000,
6000
],
"line": "/x --device=1 --level=RAID1 raid.1 raid.2 raid.3",
"text": "raid /x --device=1 --level=RAID1 --bytes-per-inode=4096 raid.1 raid.2 raid.3\\n"
},
{
"cmd": "raid",
"cls": "F7_Raid.cls F7_RaidData.cls",
"vs": [
5000,
6000
],
"line": "/x --device=1 --level=RAID1 raid.1 raid.2 raid.3 --device=md7",
"text": "raid /x --device=7 --level=RAID1 --bytes-per-inode=4096 raid.1 raid.2 raid.3\\n"
},
{
"cmd": "raid",
"cls": "F7_Raid.cls F7_RaidData.cls",
"vs": [
5000,
6000
],
"line": "/x --device=1 --level=RAID1 raid.1 raid.2 raid.3 --device=data",
"text": null
},
{
"cmd": "raid",
"cls": "F7_Raid.cls F7_RaidData.cls",
"vs": [
5000,
6000
],
"line": "/x --device=1 --level=RAID1 raid.1 raid.2 raid.3 --level=0",
"text": "raid /x --device=1 --level=RAID0 --bytes-per-inode=4096 raid.1 raid.2 raid.3\\n"
},
{
"cmd": "raid",
"cls": "F7_Raid.cls F7_RaidData.cls",
"vs": [
5000,
6000
],
"line": "/x --device=1 --level=RAID1 raid.1 raid.2 raid.3 --level=RAID5",
"text": "raid /x --device=1 --level=RAID5 --bytes-per-inode=4096 raid.1 raid.2 raid.3\\n"
},
{
"cmd": "raid",
"cls": "F7_Raid.cls F7_RaidData.cls",
"vs": [
5000,
6000
],
"line": "/x --device=1 --level=RAID1 raid.1 raid.2 raid.3 --level=raid6",
"text": "raid /x --device=1 --level=RAID6 --bytes-per-inode=4096 raid.1 raid.2 raid.3\\n"
},
{
"cmd": "raid",
"cls": "F7_Raid.cls F7_RaidData.cls",
"vs": [
5000,
6000
],
"line": "/x --device=1 --level=RAID1 raid.1 raid.2 raid.3 --level=10",
"text": "raid /x --device=1 --level=RAID10 --bytes-per-inode=4096 raid.1 raid.2 raid.3\\n"
},
{
"cmd": "raid",
"cls": "F7_Raid.cls F7_RaidData.cls",
"vs": [
5000,
6000
],
"line": "/x --device=1 --level=RAID1 raid.1 raid.2 raid.3 --level=linear",
"text": null
},
{
"cmd": "raid",
"cls": "F7_Raid.cls F7_RaidData.cls",
"vs": [
5000,
6000
],
"line": "/x --device=1 --level=RAID1 raid.1 raid.2 raid.3 --spares=1",
"text": "raid /x --device=1 --level=RAID1 --spares=1 --bytes-per-inode=4096 raid.1 raid.2 raid.3\\n"
},
{
"cmd": "raid",
"cls": "F7_Raid.cls F7_RaidData.cls",
"vs": [
5000,
6000
],
"line": "/x --device=1 --level=RAID1 raid.1 raid.2 raid.3 --spares=2",
"text": "raid /x --device=1 --level=RAID1 --spares=2 --bytes-per-inode=4096 raid.1 raid.2 raid.3\\n"
},
{
"cmd": "rootpw",
"cls": "FC3_RootPw.cls",
"vs": [
5000,
1000,
2000,
3000,
4000,
900,
1100,
4100
],
"line": "P",
"text": "# Root password\\nrootpw P\\n"
},
{
"cmd": "rootpw",
"cls": "FC3_RootPw.cls",
"vs": [
5000,
1000,
2000,
3000,
4000,
900,
1100,
4100
],
"line": "P --iscrypted",
"text": "# Root password\\nrootpw --iscrypted P\\n"
},
{
"cmd": "rootpw",
"cls": "FC3_RootPw.cls",
"vs": [
5000,
1000,
2000,
3000,
4000,
900,
1100,
4100
],
"line": "P --lock",
"text": null
},
{
"cmd": "rootpw",
"cls": "FC3_RootPw.cls",
"vs": [
5000,
1000,
2000,
3000,
4000,
900,
1100,
4100
],
"line": "P --plaintext",
"text": null
},
{
"cmd": "rootpw",
"cls": "FC3_RootPw.cls",
"vs": [
5000,
1000,
2000,
3000,
4000,
900,
1100,
4100
],
"line": "a#b",
"text": "# Root password\\nrootpw \\\"a#b\\\"\\n"
},
{
"cmd": "rootpw",
"cls": "FC3_RootPw.cls",
"vs": [
5000,
1000,
2000,
3000,
4000,
900,
1100,
4100
],
"line": "--iscrypted a#b",
"text": "# Root password\\nrootpw --iscrypted \\\"a#b\\\"\\n"
},
{
"cmd": "rootpw",
"cls": "FC3_RootPw.cls",
"vs": [
5000,
1000,
2000,
3000,
4000,
900,
1100,
4100
],
"line": "--lock a",
"text": null
},
{
"cmd": "zerombr",
"cls": "FC3_ZeroMbr.cls",
"vs": [
5000,
6000,
1000,
2000,
3000,
4000,
900,
1100,
4100
],
"line": "",
"text": "# Clear the Master Boot Record\\nzerombr\\n"
},
{
"cmd": "zerombr",
"cls": "FC3_ZeroMbr.cls",
"vs": [
5000,
6000,
1000,
2000,
3000,
4000,
900,
1100,
4100
],
"line": "x",
"text": "# Clear the Master Boot Record\\nzerombr\\n"
},
{
"cmd": "zerombr",
"cls": "FC3_ZeroMbr.cls",
"vs": [
5000,
6000,
1000,
2000,
3000,
4000,
900,
1100,
4100
],
"line": "yes",
"text": "# Clear the Master Boot Record\\nzerombr\\n"
},
{
"cmd": "firewall",
"cls": "F9_Firewall.cls",
"vs": [
7000
],
"line": "",
"text": "# Firewall configuration\\nfirewall --enabled\\n"
},
{
"cmd": "firewall",
"cls": "F9_Firewall.cls",
"vs": [
7000
],
"line": "--disable",
"text": "# Firewall configuration\\nfirewall --disabled\\n"
},
{
"cmd": "firewall",
"cls": "F9_Firewall.cls",
"vs": [
7000
],
"line": "--disabled",
"text": "# Firewall configuration\\nfirewall --disabled\\n"
},
{
"cmd": "firewall",
"cls": "F9_Firewall.cls",
"vs": [
7000
],
"line": "--enable",
"text": "# Firewall configuration\\nfirewall --enabled\\n"
},
{
"cmd": "firewall",
"cls": "F9_Firewall.cls",
"vs": [
7000
],
"line": "--enabled",
"text": "# Firewall configuration\\nfirewall --enabled\\n"
},
{
"cmd": "firewall",
"cls": "F9_Firewall.cls",
"vs": [
7000
],
"line": "--port=QX:tcp",
"text": "# Firewall configuration\\nfirewall --enabled --port=QX:tcp\\n"
},
{
"cmd": "firewall",
"cls": "F9_Firewall.cls",
"vs": [
7000
],
"line": "--trust=QX",
"text": "# Firewall configuration\\nfirewall --enabled --trust=QX\\n"
},
{
"cmd": "firewall",
"cls": "F9_Firewall.cls",
"vs": [
7000
],
"line": "--service=QX",
"text": null
},
{
"cmd": "firewall",
"cls": "F9_Firewall.cls",
"vs": [
7000
],
"line": "--ftp",
"text": "# Firewall configuration\\nfirewall --enabled --port=21:tcp\\n"
},
{
"cmd": "firewall",
"cls": "F9_Firewall.cls",
"vs": [
7000
],
"line": "--http",
"text": "# Firewall configuration\\nfirewall --enabled --port=80:tcp,443:tcp\\n"
},
{
"cmd": "firewall",
"cls": "F9_Firewall.cls",
"vs": [
7000
],
"line": "--smtp",
"text": "# Firewall configuration\\nfirewall --enabled --port=25:tcp\\n"
},
{
"cmd": "firewall",
"cls": "F9_Firewall.cls",
"vs": [
7000
],
"line": "--ssh",
"text": "# Firewall configuration\\nfirewall --enabled --port=22:tcp\\n"
},
{
"cmd": "firewall",
"cls": "F9_Firewall.cls",
"vs": [
7000
],
"line": "--telnet=QX",
"text": null
},
{
"cmd": "firewall",
"cls": "F9_Firewall.cls",
"vs": [
7000
],
"line": "--remove-service=QX",
"text": null
},
{
"cmd": "firewall",
"cls": "F9_Firewall.cls",
"vs": [
7000
],
"line": "--use-system-defaults",
"text": null
},
{
"cmd": "firewall",
"cls": "F9_Firewall.cls",
"vs": [
7000
],
"line": "--telnet",
"text": "# Firewall configuration\\nfirewall --enabled --port=23:tcp\\n"
},
{
"cmd": "firewall",
"cls": "F9_Firewall.cls",
"vs": [
7000
],
"line": "--high=QX",
"text": null
},
{
"cmd": "firewall",
"cls": "F9_Firewall.cls",
"vs": [
7000
],
"line": "--medium=QX",
"text": null
},
{
"cmd": "firewall",
"cls": "F9_Firewall.cls",
"vs": [
7000
],
"line": "--port=ssh:tcp,telnet:tcp,smtp:tcp,http:tcp,ftp:tcp,imap:udp,99",
"text": "# Firewall configuration\\nfirewall --enabled --ssh --telnet --smtp --http --ftp --port=imap:udp,99:tcp\\n"
},
{
"cmd": "firewall",
"cls": "F9_Firewall.cls",
"vs": [
7000
],
"line": "--ssh --port=1:udp --trust=a --trust=b",
"text": "# Firewall configuration\\nfirewall --enabled --port=22:tcp,1:udp --trust=a,b\\n"
},
{
"cmd": "firewall",
"cls": "F9_Firewall.cls",
"vs": [
7000
],
"line": "--disabled --ssh",
"text": "# Firewall configuration\\nfirewall --disabled\\n"
},
{
"cmd": "firewall",
"cls": "F9_Firewall.cls",
"vs": [
7000
],
"line": "--service=a,b --remove-service=c,d --trust=t --port=5",
"text": null
},
{
"cmd": "langsupport",
"cls": "FC3_LangSupport.cls",
"vs": [
1000,
2000,
900,
1100
],
"line": "",
"text": "langsupport --default=en_US.UTF-8\\n"
},
{
"cmd": "langsupport",
"cls": "FC3_LangSupport.cls",
"vs": [
1000,
2000,
900,
1100
],
"line": "--default=QX",
"text": "langsupport --default=QX\\n"
},
{
"cmd": "langsupport",
"cls": "FC3_LangSupport.cls",
"vs": [
1000,
2000,
900,
1100
],
"line": "--default=d a b",
"text": "langsupport --default=d a b\\n"
},
{
"cmd": "lilo",
"cls": "FC3_Lilo.cls",
"vs": [
1000,
900,
1100
],
"line": "",
"text": "# System bootloader configuration\\nbootloader --linear --location=mbr --useLilo\\n"
},
{
"cmd": "lilo",
"cls": "FC3_Lilo.cls",
"vs": [
1000,
900,
1100
],
"line": "--append=QX",
"text": "# System bootloader configuration\\nbootloader --append=\\\"QX\\\" --linear --location=mbr --useLilo\\n"
},
{
"cmd": "lilo",
"cls": "FC3_Lilo.cls",
"vs": [
1000,
900,
1100
],
"line": "--linear",
"text": "# System bootloader configuration\\nbootloader --linear --location=mbr --useLilo\\n"
},
{
"cmd": "lilo",
"cls": "FC3_Lilo.cls",
"vs": [
1000,
900,
1100
],
"line": "--nolinear",
"text": "# System bootloader configuration\\nbootloader --location=mbr --useLilo\\n"
},
{
"cmd": "lilo",
"cls": "FC3_Lilo.cls",
"vs": [
1000,
900,
1100
],
"line": "--location=mbr",
"text": "# System bootloader configuration\\nbootloader --linear --location=mbr --useLilo\\n"
},
{
"cmd": "lilo",
"cls": "FC3_Lilo.cls",
"vs": [
1000,
900,
1100
],
"line": "--location=partition",
"text": "# System bootloader configuration\\nbootloader --linear --location=partition --useLilo\\n"
},
{
"cmd": "lilo",
"cls": "FC3_Lilo.cls",
"vs": [
1000,
900,
1100
],
"line": "--location=none",
"text": "# System bootloader configuration\\nbootloader --linear --location=none --useLilo\\n"
},
{
"cmd": "lilo",
"cls": "FC3_Lilo.cls",
"vs": [
1000,
900,
1100
],
"line": "--location=boot",
"text": "# System bootloader configuration\\nbootloader --linear --location=boot --useLilo\\n"
},
{
"cmd": "lilo",
"cls": "FC3_Lilo.cls",
"vs": [
1000,
900,
1100
],
"line": "--lba32",
"text": "# System bootloader configuration\\nbootloader --linear --location=mbr --lba32 --useLilo\\n"
},
{
"cmd": "lilo",
"cls": "FC3_Lilo.cls",
"vs": [
1000,
900,
1100
],
"line": "--password=QX",
"text": "# System bootloader configuration\\nbootloader --linear --location=mbr --password=\\\"QX\\\" --useLilo\\n"
},
{
"cmd": "lilo",
"cls": "FC3_Lilo.cls",
"vs": [
1000,
900,
1100
],
"line": "--md5pass=QX",
"text": "# System bootloader configuration\\nbootloader --linear --location=mbr --md5pass=\\\"QX\\\" --useLilo\\n"
},
{
"cmd": "lilo",
"cls": "FC3_Lilo.cls",
"vs": [
1000,
900,
1100
],
"line": "--upgrade",
"text": "# System bootloader configuration\\nbootloader --linear --location=mbr --upgrade --useLilo\\n"
},
{
"cmd": "lilo",
"cls": "FC3_Lilo.cls",
"vs": [
1000,
900,
1100
],
"line": "--useLilo",
"text": "# System bootloader configuration\\nbootloader --linear --location=mbr --useLilo\\n"
},
{
"cmd": "lilo",
"cls": "FC3_Lilo.cls",
"vs": [
1000,
900,
1100
],
"line": "--driveorder=QX",
"text": "# System bootloader configuration\\nbootloader --linear --location=mbr --useLilo --driveorder=\\\"QX\\\"\\n"
},
{
"cmd": "lilo",
"cls": "FC3_Lilo.cls",
"vs": [
1000,
900,
1100
],
"line": "--append=a --nolinear --location=none --lba32 --password=p --md5pass=m --upgrade --driveorder=a,b",
"text": "# System bootloader configuration\\nbootloader --append=\\\"a\\\" --location=none --lba32 --password=\\\"p\\\" --md5pass=\\\"m\\\" --upgrade --useLilo --driveorder=\\\"a,b\\\"\\n"
},
{
"cmd": "lilocheck",
"cls": "FC3_LiloCheck.cls",
"vs": [
1000,
900,
1100
],
"line": "",
"text": "lilocheck\\n"
},
{
"cmd": "lilocheck",
"cls": "FC3_LiloCheck.cls",
"vs": [
1000,
900,
1100
],
"line": "x",
"text": null
},
{
"cmd": "raid",
"cls": "FC3_Raid.cls FC3_RaidData.cls",
"vs": [
1000,
900,
1100
],
"line": "/x --device=1 --level=RAID1 raid.1 raid.2",
"text": "raid /x --device=1 --level=RAID1 raid.1 raid.2\\n"
},
{
"cmd": "raid",
"cls": "FC3_Raid.cls FC3_RaidData.cls",
"vs": [
1000,
900,
1100
],
"line": "/x --device=1 --level=RAID1 raid.1 raid.2 --device=QX",
"text": null
},
{
"cmd": "raid",
"cls": "FC3_Raid.cls FC3_RaidData.cls",
"vs": [
1000,
900,
1100
],
"line": "/x --device=1 --level=RAID1 raid.1 raid.2 --fstype=QX",
"text": "raid /x --device=1 --fstype=\\\"QX\\\" --level=RAID1 raid.1 raid.2\\n"
},
{
"cmd": "raid",
"cls": "FC3_Raid.cls FC3_RaidData.cls",
"vs": [
1000,
900,
1100
],
"line": "/x --device=1 --level=RAID1 raid.1 raid.2 --level=RAID0",
"text": "raid /x --device=1 --level=RAID0 raid.1 raid.2\\n"
},
{
"cmd": "raid",
"cls": "FC3_Raid.cls FC3_RaidData.cls",
"vs": [
1000,
900,
1100
],
"line": "/x --device=1 --level=RAID1 raid.1 raid.2 --level=0",
"text": "raid /x --device=1 --level=RAID0 raid.1 raid.2\\n"
},
{
"cmd": "raid",
"cls": "FC3_Raid.cls FC3_RaidData.cls",
"vs": [
1000,
900,
1100
],
"line": "/x --device=1 --level=RAID1 raid.1 raid.2 --level=RAID1",
"text": "raid /x --device=1 --level=RAID1 raid.1 raid.2\\n"
},
{
"cmd": "raid",
"cls": "FC3_Raid.cls FC3_RaidData.cls",
"vs": [
1000,
900,
1100
],
"line": "/x --device=1 --level=RAID1 raid.1 raid.2 --level=1",
"text": "raid /x --device=1 --level=RAID1 raid.1 raid.2\\n"
},
{
"cmd": "raid",
"cls": "FC3_Raid.cls FC3_RaidData.cls",
"vs": [
1000,
900,
1100
],
"line": "/x --device=1 --level=RAID1 raid.1 raid.2 --level=RAID5",
"text": "raid /x --device=1 --level=RAID5 raid.1 raid.2\\n"
},
{
"cmd": "raid",
"cls": "FC3_Raid.cls FC3_RaidData.cls",
"vs": [
1000,
900,
1100
],
"line": "/x --device=1 --level=RAID1 raid.1 raid.2 --level=5",
"text": "raid /x --device=1 --level=RAID5 raid.1 raid.2\\n"
},
{
"cmd": "raid",
"cls": "FC3_Raid.cls FC3_RaidData.cls",
"vs": [
1000,
900,
1100
],
"line": "/x --device=1 --level=RAID1 raid.1 raid.2 --level=RAID6",
"text": "raid /x --device=1 --level=RAID6 raid.1 raid.2\\n"
},
{
"cmd": "raid",
"cls": "FC3_Raid.cls FC3_RaidData.cls",
"vs": [
1000,
900,
1100
],
"line": "/x --device=1 --level=RAID1 raid.1 raid.2 --level=6",
"text": "raid /x --device=1 --level=RAID6 raid.1 raid.2\\n"
},
{
"cmd": "raid",
"cls": "FC3_Raid.cls FC3_RaidData.cls",
"vs": [
1000,
900,
1100
],
"line": "/x --device=1 --level=RAID1 raid.1 raid.2 --level=RAID10",
"text": null
},
{
"cmd": "raid",
"cls": "FC3_Raid.cls FC3_RaidData.cls",
"vs": [
1000,
900,
1100
],
"line": "/x --device=1 --level=RAID1 raid.1 raid.2 --level=10",
"text": null
},
{
"cmd": "raid",
"cls": "FC3_Raid.cls FC3_RaidData.cls",
"vs": [
1000,
900,
1100
],
"line": "/x --device=1 --level=RAID1 raid.1 raid.2 --noformat",
"text": null
},
{
"cmd": "raid",
"cls": "FC3_Raid.cls FC3_RaidData.cls",
"vs": [
1000,
900,
1100
],
"line": "/x --device=1 --level=RAID1 raid.1 raid.2 --spares=42",
"text": "raid /x --device=1 --level=RAID1 --spares=42 raid.1 raid.2\\n"
},
{
"cmd": "raid",
"cls": "FC3_Raid.cls FC3_RaidData.cls",
"vs": [
1000,
900,
1100
],
"line": "/x --device=1 --level=RAID1 raid.1 raid.2 --useexisting",
"text": null
},
{
"cmd": "raid",
"cls": "FC3_Raid.cls FC3_RaidData.cls",
"vs": [
1000,
900,
1100
],
"line": "/x --device=1 --level=RAID1 raid.1 raid.2 --fsoptions=QX",
"text": null
},
{
"cmd": "raid",
"cls": "FC3_Raid.cls FC3_RaidData.cls",
"vs": [
1000,
900,
1100
],
"line": "/x --device=1 --level=RAID1 raid.1 raid.2 --bytes-per-inode=QX",
"text": null
},
{
"cmd": "raid",
"cls": "FC3_Raid.cls FC3_RaidData.cls",
"vs": [
1000,
900,
1100
],
"line": "/x --device=1 --level=RAID1 raid.1 raid.2 --fsprofile=QX",
"text": null
},
{
"cmd": "raid",
"cls": "FC3_Raid.cls FC3_RaidData.cls",
"vs": [
1000,
900,
1100
],
"line": "/x --device=1 --level=RAID1 raid.1 raid.2 --encrypted",
"text": null
},
{
"cmd": "raid",
"cls": "FC3_Raid.cls FC3_RaidData.cls",
"vs": [
1000,
900,
1100
],
"line": "/x --device=1 --level=RAID1 raid.1 raid.2 --passphrase=QX",
"text": null
},
{
"cmd": "raid",
"cls": "FC3_Raid.cls FC3_RaidData.cls",
"vs": [
1000,
900,
1100
],
"line": "/x --device=1 --level=RAID1 raid.1 raid.2 --escrowcert=QX",
"text": null
},
{
"cmd": "raid",
"cls": "FC3_Raid.cls FC3_RaidData.cls",
"vs": [
1000,
900,
1100
],
"line": "/x --device=1 --level=RAID1 raid.1 raid.2 --backuppassphrase",
"text": null
},
{
"cmd": "raid",
"cls": "FC3_Raid.cls FC3_RaidData.cls",
"vs": [
1000,
900,
1100
],
"line": "/x --device=1 --level=RAID1 raid.1 raid.2 --level=RAID4",
"text": null
},
{
"cmd": "raid",
"cls": "FC3_Raid.cls FC3_RaidData.cls",
"vs": [
1000,
900,
1100
],
"line": "/x --device=1 --level=RAID1 raid.1 raid.2 --level=4",
"text": null
},
{
"cmd": "raid",
"cls": "FC3_Raid.cls FC3_RaidData.cls",
"vs": [
1000,
900,
1100
],
"line": "/x --device=1 --level=RAID1 raid.1 raid.2 --label=QX",
"text": null
},
{
"cmd": "raid",
"cls": "FC3_Raid.cls FC3_RaidData.cls",
"vs": [
1000,
900,
1100
],
"line": "/x --device=1 --level=RAID1 raid.1 raid.2 --cipher=QX",
"text": null
},
{
"cmd": "raid",
"cls": "FC3_Raid.cls FC3_RaidData.cls",
"vs": [
1000,
900,
1100
],
"line": "/x --device=1 --level=RAID1 raid.1 raid.2 --mkfsoptions=QX",
"text": null
},
{
"cmd": "raid",
"cls": "FC3_Raid.cls FC3_RaidData.cls",
"vs": [
1000,
900,
1100
],
"line": "/x --device=1 --level=RAID1 raid.1 raid.2 --chunksize=42",
"text": null
},
{
"cmd": "raid",
"cls": "FC3_Raid.cls FC3_RaidData.cls",
"vs": [
1000,
900,
1100
],
"line": "/x --device=1 --level=RAID1 raid.1 raid.2 --luks-version=QX",
"text": null
},
{
"cmd": "raid",
"cls": "FC3_Raid.cls FC3_RaidData.cls",
"vs": [
1000,
900,
1100
],
"line": "/x --device=1 --level=RAID1 raid.1 raid.2 --pbkdf=QX",
"text": null
},
{
"cmd": "raid",
"cls": "FC3_Raid.cls FC3_RaidData.cls",
"vs": [
1000,
900,
1100
],
"line": "/x --device=1 --level=RAID1 raid.1 raid.2 --pbkdf-memory=42",
"text": null
},
{
"cmd": "raid",
"cls": "FC3_Raid.cls FC3_RaidData.cls",
"vs": [
1000,
900,
1100
],
"line": "/x --device=1 --level=RAID1 raid.1 raid.2 --pbkdf-time=42",
"text": null
},
{
"cmd": "raid",
"cls": "FC3_Raid.cls FC3_RaidData.cls",
"vs": [
1000,
900,
1100
],
"line": "/x --device=1 --level=RAID1 raid.1 raid.2 --pbkdf-iterations=42",
"text": null
},
{
"cmd": "raid",
"cls": "FC3_Raid.cls FC3_RaidData.cls",
"vs": [
1000,
900,
1100
],
"line": "/x --device=1 --level=RAID1 raid.1 raid.2 --bytes-per-inode=42",
"text": null
},
{
"cmd": "raid",
"cls": "FC3_Raid.cls FC3_RaidData.cls",
"vs": [
1000,
900,
1100
],
"line": "/x --device=1 --level=RAID1 raid.1 raid.2 --encrypted --passphrase=QX",
"text": null
},
{
"cmd": "raid",
"cls": "FC3_Raid.cls FC3_RaidData.cls",
"vs": [
1000,
900,
1100
],
"line": "/x --device=1 --level=RAID1 raid.1 raid.2 --encrypted --escrowcert=QX",
"text": null
},
{
"cmd": "raid",
"cls": "FC3_Raid.cls FC3_RaidData.cls",
"vs": [
1000,
900,
1100
],
"line": "/x --device=1 --level=RAID1 raid.1 raid.2 --encrypted --escrowcert=c --backuppassphrase",
"text": null
},
{
"cmd": "raid",
"cls": "FC3_Raid.cls FC3_RaidData.cls",
"vs": [
1000,
900,
1100
],
"line": "/x --device=1 --level=RAID1 raid.1 raid.2 --encrypted --cipher=QX",
"text": null
},
{
"cmd": "raid",
"cls": "FC3_Raid.cls FC3_RaidData.cls",
"vs": [
1000,
900,
1100
],
"line": "/x --device=1 --level=RAID1 raid.1 raid.2 --encrypted --luks-version=QX",
"text": null
},
{
"cmd": "raid",
"cls": "FC3_Raid.cls FC3_RaidData.cls",
"vs": [
1000,
900,
1100
],
"line": "/x --device=1 --level=RAID1 raid.1 raid.2 --encrypted --pbkdf=QX",
"text": null
},
{
"cmd": "raid",
"cls": "FC3_Raid.cls FC3_RaidData.cls",
"vs": [
1000,
900,
1100
],
"line": "/x --device=1 --level=RAID1 raid.1 raid.2 --encrypted --pbkdf-memory=42",
"text": null
},
{
"cmd": "raid",
"cls": "FC3_Raid.cls FC3_RaidData.cls",
"vs": [
1000,
900,
1100
],
"line": "/x --device=1 --level=RAID1 raid.1 raid.2 --encrypted --pbkdf-time=42",
"text": null
},
{
"cmd": "raid",
"cls": "FC3_Raid.cls FC3_RaidData.cls",
"vs": [
1000,
900,
1100
],
"line": "/x --device=1 --level=RAID1 raid.1 raid.2 --encrypted --pbkdf-iterations=42",
"text": null
},
{
"cmd": "raid",
"cls": "FC3_Raid.cls FC3_RaidData.cls",
"vs": [
1000,
900,
1100
],
"line": "/x --device=1 --level=RAID1 raid.1 raid.2 raid.3 --spares=1 --fstype=ext4 --fsoptions=o --fsprofile=f --encrypted",
"text": null
},
{
"cmd": "raid",
"cls": "FC3_Raid.cls FC3_RaidData.cls",
"vs": [
1000,
900,
1100
],
"line": "/x --device=1 --noformat",
"text": "raid /x --device=1 --noformat --useexisting\\n"
},
{
"cmd": "raid",
"cls": "FC3_Raid.cls FC3_RaidData.cls",
"vs": [
1000,
900,
1100
],
"line": "/x --device=1 --noformat --fstype=ext4",
"text": "raid /x --device=1 --fstype=\\\"ext4\\\" --noformat --useexisting\\n"
},
{
"cmd": "raid",
"cls": "FC3_Raid.cls FC3_RaidData.cls",
"vs": [
1000,
900,
1100
],
"line": "/x --device=1 --noformat --label=QX",
"text": null
},
{
"cmd": "raid",
"cls": "FC3_Raid.cls FC3_RaidData.cls",
"vs": [
1000,
900,
1100
],
"line": "/x --device=1 --useexisting",
"text": "raid /x --device=1 --useexisting\\n"
},
{
"cmd": "raid",
"cls": "FC3_Raid.cls FC3_RaidData.cls",
"vs": [
1000,
900,
1100
],
"line": "/x --device=1 --useexisting --fstype=ext4",
"text": "raid /x --device=1 --fstype=\\\"ext4\\\" --useexisting\\n"
},
{
"cmd": "raid",
"cls": "FC3_Raid.cls FC3_RaidData.cls",
"vs": [
1000,
900,
1100
],
"line": "/x --device=1 --useexisting --label=QX",
"text": null
},
{
"cmd": "raid",
"cls": "FC3_Raid.cls FC3_RaidData.cls",
"vs": [
1000,
900,
1100
],
"line": "/x --device=1 --level=RAID1 raid.1 raid.2 raid.3",
"text": "raid /x --device=1 --level=RAID1 raid.1 raid.2 raid.3\\n"
},
{
"cmd": "raid",
"cls": "FC3_Raid.cls FC3_RaidData.cls",
"vs": [
1000,
900,
1100
],
"line": "/x --device=1 --level=RAID1 raid.1 raid.2 raid.3 --device=md7",
"text": "raid /x --device=7 --level=RAID1 raid.1 raid.2 raid.3\\n"
},
{
"cmd": "raid",
"cls": "FC3_Raid.cls FC3_RaidData.cls",
"vs": [
1000,
900,
1100
],
"line": "/x --device=1 --level=RAID1 raid.1 raid.2 raid.3 --device=data",
"text": null
},
{
"cmd": "raid",
"cls": "FC3_Raid.cls FC3_RaidData.cls",
"vs": [
1000,
900,
1100
],
"line": "/x --device=1 --level=RAID1 raid.1 raid.2 raid.3 --level=0",
"text": "raid /x --device=1 --level=RAID0 raid.1 raid.2 raid.3\\n"
},
{
"cmd": "raid",
"cls": "FC3_Raid.cls FC3_RaidData.cls",
"vs": [
1000,
900,
1100
],
"line": "/x --device=1 --level=RAID1 raid.1 raid.2 raid.3 --level=RAID5",
"text": "raid /x --device=1 --level=RAID5 raid.1 raid.2 raid.3\\n"
},
{
"cmd": "raid",
"cls": "FC3_Raid.cls FC3_RaidData.cls",
"vs": [
1000,
900,
1100
],
"line": "/x --device=1 --level=RAID1 raid.1 raid.2 raid.3 --level=raid6",
"text": "raid /x --device=1 --level=RAID6 raid.1 raid.2 raid.3\\n"
},
{
"cmd": "raid",
"cls": "FC3_Raid.cls FC3_RaidData.cls",
"vs": [
1000,
900,
1100
],
"line": "/x --device=1 --level=RAID1 raid.1 raid.2 raid.3 --level=10",
"text": null
},
{
"cmd": "raid",
"cls": "FC3_Raid.cls FC3_RaidData.cls",
"vs": [
1000,
900,
1100
],
"line": "/x --device=1 --level=RAID1 raid.1 raid.2 raid.3 --level=linear",
"text": null
},
{
"cmd": "raid",
"cls": "FC3_Raid.cls FC3_RaidData.cls",
"vs": [
1000,
900,
1100
],
"line": "/x --device=1 --level=RAID1 raid.1 raid.2 raid.3 --spares=1",
"text": "raid /x --device=1 --level=RAID1 --spares=1 raid.1 raid.2 raid.3\\n"
},
{
"cmd": "raid",
"cls": "FC3_Raid.cls FC3_RaidData.cls",
"vs": [
1000,
900,
1100
],
"line": "/x --device=1 --level=RAID1 raid.1 raid.2 raid.3 --spares=2",
"text": "raid /x --device=1 --level=RAID1 --spares=2 raid.1 raid.2 raid.3\\n"
},
{
"cmd": "raid",
"cls": "FC4_Raid.cls FC4_RaidData.cls",
"vs": [
2000
],
"line": "/x --device=1 --level=RAID1 raid.1 raid.2",
"text": "raid /x --device=1 --level=RAID1 raid.1 raid.2\\n"
},
{
"cmd": "raid",
"cls": "FC4_Raid.cls FC4_RaidData.cls",
"vs": [
2000
],
"line": "/x --device=1 --level=RAID1 raid.1 raid.2 --device=QX",
"text": null
},
{
"cmd": "raid",
"cls": "FC4_Raid.cls FC4_RaidData.cls",
"vs": [
2000
],
"line": "/x --device=1 --level=RAID1 raid.1 raid.2 --fstype=QX",
"text": "raid /x --device=1 --fstype=\\\"QX\\\" --level=RAID1 raid.1 raid.2\\n"
},
{
"cmd": "raid",
"cls": "FC4_Raid.cls FC4_RaidData.cls",
"vs": [
2000
],
"line": "/x --device=1 --level=RAID1 raid.1 raid.2 --level=RAID0",
"text": "raid /x --device=1 --level=RAID0 raid.1 raid.2\\n"
},
{
"cmd": "raid",
"cls": "FC4_Raid.cls FC4_RaidData.cls",
"vs": [
2000
],
"line": "/x --device=1 --level=RAID1 raid.1 raid.2 --level=0",
"text": "raid /x --device=1 --level=RAID0 raid.1 raid.2\\n"
},
{
"cmd": "raid",
"cls": "FC4_Raid.cls FC4_RaidData.cls",
"vs": [
2000
],
"line": "/x --device=1 --level=RAID1 raid.1 raid.2 --level=RAID1",
"text": "raid /x --device=1 --level=RAID1 raid.1 raid.2\\n"
},
{
"cmd": "raid",
"cls": "FC4_Raid.cls FC4_RaidData.cls",
"vs": [
2000
],
"line": "/x --device=1 --level=RAID1 raid.1 raid.2 --level=1",
"text": "raid /x --device=1 --level=RAID1 raid.1 raid.2\\n"
},
{
"cmd": "raid",
"cls": "FC4_Raid.cls FC4_RaidData.cls",
"vs": [
2000
],
"line": "/x --device=1 --level=RAID1 raid.1 raid.2 --level=RAID5",
"text": "raid /x --device=1 --level=RAID5 raid.1 raid.2\\n"
},
{
"cmd": "raid",
"cls": "FC4_Raid.cls FC4_RaidData.cls",
"vs": [
2000
],
"line": "/x --device=1 --level=RAID1 raid.1 raid.2 --level=5",
"text": "raid /x --device=1 --level=RAID5 raid.1 raid.2\\n"
},
{
"cmd": "raid",
"cls": "FC4_Raid.cls FC4_RaidData.cls",
"vs": [
2000
],
"line": "/x --device=1 --level=RAID1 raid.1 raid.2 --level=RAID6",
"text": "raid /x --device=1 --level=RAID6 raid.1 raid.2\\n"
},
{
"cmd": "raid",
"cls": "FC4_Raid.cls FC4_RaidData.cls",
"vs": [
2000
],
"line": "/x --device=1 --level=RAID1 raid.1 raid.2 --level=6",
"text": "raid /x --device=1 --level=RAID6 raid.1 raid.2\\n"
},
{
"cmd": "raid",
"cls": "FC4_Raid.cls FC4_RaidData.cls",
"vs": [
2000
],
"line": "/x --device=1 --level=RAID1 raid.1 raid.2 --level=RAID10",
"text": null
},
{
"cmd": "raid",
"cls": "FC4_Raid.cls FC4_RaidData.cls",
"vs": [
2000
],
"line": "/x --device=1 --level=RAID1 raid.1 raid.2 --level=10",
"text": null
},
{
"cmd": "raid",
"cls": "FC4_Raid.cls FC4_RaidData.cls",
"vs": [
2000
],
"line": "/x --device=1 --level=RAID1 raid.1 raid.2 --noformat",
"text": null
},
{
"cmd": "raid",
"cls": "FC4_Raid.cls FC4_RaidData.cls",
"vs": [
2000
],
"line": "/x --device=1 --level=RAID1 raid.1 raid.2 --spares=42",
"text": "raid /x --device=1 --level=RAID1 --spares=42 raid.1 raid.2\\n"
},
{
"cmd": "raid",
"cls": "FC4_Raid.cls FC4_RaidData.cls",
"vs": [
2000
],
"line": "/x --device=1 --level=RAID1 raid.1 raid.2 --useexisting",
"text": null
},
{
"cmd": "raid",
"cls": "FC4_Raid.cls FC4_RaidData.cls",
"vs": [
2000
],
"line": "/x --device=1 --level=RAID1 raid.1 raid.2 --fsoptions=QX",
"text": "raid /x --device=1 --level=RAID1 --fsoptions=\\\"QX\\\" raid.1 raid.2\\n"
},
{
"cmd": "raid",
"cls": "FC4_Raid.cls FC4_RaidData.cls",
"vs": [
2000
],
"line": "/x --device=1 --level=RAID1 raid.1 raid.2 --bytes-per-inode=QX",
"text": null
},
{
"cmd": "raid",
"cls": "FC4_Raid.cls FC4_RaidData.cls",
"vs": [
2000
],
"line": "/x --device=1 --level=RAID1 raid.1 raid.2 --fsprofile=QX",
"text": null
},
{
"cmd": "raid",
"cls": "FC4_Raid.cls FC4_RaidData.cls",
"vs": [
2000
],
"line": "/x --device=1 --level=RAID1 raid.1 raid.2 --encrypted",
"text": null
},
{
"cmd": "raid",
"cls": "FC4_Raid.cls FC4_RaidData.cls",
"vs": [
2000
],
"line": "/x --device=1 --level=RAID1 raid.1 raid.2 --passphrase=QX",
"text": null
},
{
"cmd": "raid",
"cls": "FC4_Raid.cls FC4_RaidData.cls",
"vs": [
2000
],
"line": "/x --device=1 --level=RAID1 raid.1 raid.2 --escrowcert=QX",
"text": null
},
{
"cmd": "raid",
"cls": "FC4_Raid.cls FC4_RaidData.cls",
"vs": [
2000
],
"line": "/x --device=1 --level=RAID1 raid.1 raid.2 --backuppassphrase",
"text": null
},
{
"cmd": "raid",
"cls": "FC4_Raid.cls FC4_RaidData.cls",
"vs": [
2000
],
"line": "/x --device=1 --level=RAID1 raid.1 raid.2 --level=RAID4",
"text": null
},
{
"cmd": "raid",
"cls": "FC4_Raid.cls FC4_RaidData.cls",
"vs": [
2000
],
"line": "/x --device=1 --level=RAID1 raid.1 raid.2 --level=4",
"text": null
},
{
"cmd": "raid",
"cls": "FC4_Raid.cls FC4_RaidData.cls",
"vs": [
2000
],
"line": "/x --device=1 --level=RAID1 raid.1 raid.2 --label=QX",
"text": null
},
{
"cmd": "raid",
"cls": "FC4_Raid.cls FC4_RaidData.cls",
"vs": [
2000
],
"line": "/x --device=1 --level=RAID1 raid.1 raid.2 --cipher=QX",
"text": null
},
{
"cmd": "raid",
"cls": "FC4_Raid.cls FC4_RaidData.cls",
"vs": [
2000
],
"line": "/x --device=1 --level=RAID1 raid.1 raid.2 --mkfsoptions=QX",
"text": null
},
{
"cmd": "raid",
"cls": "FC4_Raid.cls FC4_RaidData.cls",
"vs": [
2000
],
"line": "/x --device=1 --level=RAID1 raid.1 raid.2 --chunksize=42",
"text": null
},
{
"cmd": "raid",
"cls": "FC4_Raid.cls FC4_RaidData.cls",
"vs": [
2000
],
"line": "/x --device=1 --level=RAID1 raid.1 raid.2 --luks-version=QX",
"text": null
},
{
"cmd": "raid",
"cls": "FC4_Raid.cls FC4_RaidData.cls",
"vs": [
2000
],
"line": "/x --device=1 --level=RAID1 raid.1 raid.2 --pbkdf=QX",
"text": null
},
{
"cmd": "raid",
"cls": "FC4_Raid.cls FC4_RaidData.cls",
"vs": [
2000
],
"line": "/x --device=1 --level=RAID1 raid.1 raid.2 --pbkdf-memory=42",
"text": null
},
{
"cmd": "raid",
"cls": "FC4_Raid.cls FC4_RaidData.cls",
"vs": [
2000
],
"line": "/x --device=1 --level=RAID1 raid.1 raid.2 --pbkdf-time=42",
"text": null
},
{
"cmd": "raid",
"cls": "FC4_Raid.cls FC4_RaidData.cls",
"vs": [
2000
],
"line": "/x --device=1 --level=RAID1 raid.1 raid.2 --pbkdf-iterations=42",
"text": null
},
{
"cmd": "raid",
"cls": "FC4_Raid.cls FC4_RaidData.cls",
"vs": [
2000
],
"line": "/x --device=1 --level=RAID1 raid.1 raid.2 --bytes-per-inode=42",
"text": null
},
{
"cmd": "raid",
"cls": "FC4_Raid.cls FC4_RaidData.cls",
"vs": [
2000
],
"line": "/x --device=1 --level=RAID1 raid.1 raid.2 --encrypted --passphrase=QX",
"text": null
},
{
"cmd": "raid",
"cls": "FC4_Raid.cls FC4_RaidData.cls",
"vs": [
2000
],
"line": "/x --device=1 --level=RAID1 raid.1 raid.2 --encrypted --escrowcert=QX",
"text": null
},
{
"cmd": "raid",
"cls": "FC4_Raid.cls FC4_RaidData.cls",
"vs": [
2000
],
"line": "/x --device=1 --level=RAID1 raid.1 raid.2 --encrypted --escrowcert=c --backuppassphrase",
"text": null
},
{
"cmd": "raid",
"cls": "FC4_Raid.cls FC4_RaidData.cls",
"vs": [
2000
],
"line": "/x --device=1 --level=RAID1 raid.1 raid.2 --encrypted --cipher=QX",
"text": null
},
{
"cmd": "raid",
"cls": "FC4_Raid.cls FC4_RaidData.cls",
"vs": [
2000
],
"line": "/x --device=1 --level=RAID1 raid.1 raid.2 --encrypted --luks-version=QX",
"text": null
},
{
"cmd": "raid",
"cls": "FC4_Raid.cls FC4_RaidData.cls",
"vs": [
2000
],
"line": "/x --device=1 --level=RAID1 raid.1 raid.2 --encrypted --pbkdf=QX",
"text": null
},
{
"cmd": "raid",
"cls": "FC4_Raid.cls FC4_RaidData.cls",
"vs": [
2000
],
"line": "/x --device=1 --level=RAID1 raid.1 raid.2 --encrypted --pbkdf-memory=42",
"text": null
},
{
"cmd": "raid",
"cls": "FC4_Raid.cls FC4_RaidData.cls",
"vs": [
2000
],
"line": "/x --device=1 --level=RAID1 raid.1 raid.2 --encrypted --pbkdf-time=42",
"text": null
},
{
"cmd": "raid",
"cls": "FC4_Raid.cls FC4_RaidData.cls",
"vs": [
2000
],
"line": "/x --device=1 --level=RAID1 raid.1 raid.2 --encrypted --pbkdf-iterations=42",
"text": null
},
{
"cmd": "raid",
"cls": "FC4_Raid.cls FC4_RaidData.cls",
"vs": [
2000
],
"line": "/x --device=1 --level=RAID1 raid.1 raid.2 raid.3 --spares=1 --fstype=ext4 --fsoptions=o --fsprofile=f --encrypted",
"text": null
},
{
"cmd": "raid",
"cls": "FC4_Raid.cls FC4_RaidData.cls",
"vs": [
2000
],
"line": "/x --device=1 --noformat",
"text": "raid /x --device=1 --noformat --useexisting\\n"
},
{
"cmd": "raid",
"cls": "FC4_Raid.cls FC4_RaidData.cls",
"vs": [
2000
],
"line": "/x --device=1 --noformat --fstype=ext4",
"text": "raid /x --device=1 --fstype=\\\"ext4\\\" --noformat --useexisting\\n"
},
{
"cmd": "raid",
"cls": "FC4_Raid.cls FC4_RaidData.cls",
"vs": [
2000
],
"line": "/x --device=1 --noformat --label=QX",
"text": null
},
{
"cmd": "raid",
"cls": "FC4_Raid.cls FC4_RaidData.cls",
"vs": [
2000
],
"line": "/x --device=1 --useexisting",
"text": "raid /x --device=1 --useexisting\\n"
},
{
"cmd": "raid",
"cls": "FC4_Raid.cls FC4_RaidData.cls",
"vs": [
2000
],
"line": "/x --device=1 --useexisting --fstype=ext4",
"text": "raid /x --device=1 --fstype=\\\"ext4\\\" --useexisting\\n"
},
{
"cmd": "raid",
"cls": "FC4_Raid.cls FC4_RaidData.cls",
"vs": [
2000
],
"line": "/x --device=1 --useexisting --label=QX",
"text": null
},
{
"cmd": "raid",
"cls": "FC4_Raid.cls FC4_RaidData.cls",
"vs": [
2000
],
"line": "/x --device=1 --level=RAID1 raid.1 raid.2 raid.3",
"text": "raid /x --device=1 --level=RAID1 raid.1 raid.2 raid.3\\n"
},
{
"cmd": "raid",
"cls": "FC4_Raid.cls FC4_RaidData.cls",
"vs": [
2000
],
"line": "/x --device=1 --level=RAID1 raid.1 raid.2 raid.3 --device=md7",
"text": "raid /x --device=7 --level=RAID1 raid.1 raid.2 raid.3\\n"
},
{
"cmd": "raid",
"cls": "FC4_Raid.cls FC4_RaidData.cls",
"vs": [
2000
],
"line": "/x --device=1 --level=RAID1 raid.1 raid.2 raid.3 --device=data",
"text": null
},
{
"cmd": "raid",
"cls": "FC4_Raid.cls FC4_RaidData.cls",
"vs": [
2000
],
"line": "/x --device=1 --level=RAID1 raid.1 raid.2 raid.3 --level=0",
"text": "raid /x --device=1 --level=RAID0 raid.1 raid.2 raid.3\\n"
},
{
"cmd": "raid",
"cls": "FC4_Raid.cls FC4_RaidData.cls",
"vs": [
2000
],
"line": "/x --device=1 --level=RAID1 raid.1 raid.2 raid.3 --level=RAID5",
"text": "raid /x --device=1 --level=RAID5 raid.1 raid.2 raid.3\\n"
},
{
"cmd": "raid",
"cls": "FC4_Raid.cls FC4_RaidData.cls",
"vs": [
2000
],
"line": "/x --device=1 --level=RAID1 raid.1 raid.2 raid.3 --level=raid6",
"text": "raid /x --device=1 --level=RAID6 raid.1 raid.2 raid.3\\n"
},
{
"cmd": "raid",
"cls": "FC4_Raid.cls FC4_RaidData.cls",
"vs": [
2000
],
"line": "/x --device=1 --level=RAID1 raid.1 raid.2 raid.3 --level=10",
"text": null
},
{
"cmd": "raid",
"cls": "FC4_Raid.cls FC4_RaidData.cls",
"vs": [
2000
],
"line": "/x --device=1 --level=RAID1 raid.1 raid.2 raid.3 --level=linear",
"text": null
},
{
"cmd": "raid",
"cls": "FC4_Raid.cls FC4_RaidData.cls",
"vs": [
2000
],
"line": "/x --device=1 --level=RAID1 raid.1 raid.2 raid.3 --spares=1",
"text": "raid /x --device=1 --level=RAID1 --spares=1 raid.1 raid.2 raid.3\\n"
},
{
"cmd": "raid",
"cls": "FC4_Raid.cls FC4_RaidData.cls",
"vs": [
2000
],
"line": "/x --device=1 --level=RAID1 raid.1 raid.2 raid.3 --spares=2",
"text": "raid /x --device=1 --level=RAID1 --spares=2 raid.1 raid.2 raid.3\\n"
},
{
"cmd": "raid",
"cls": "FC5_Raid.cls FC5_RaidData.cls",
"vs": [
3000,
4000
],
"line": "/x --device=1 --level=RAID1 raid.1 raid.2",
"text": "raid /x --device=1 --level=RAID1 --bytes-per-inode=4096 raid.1 raid.2\\n"
},
{
"cmd": "raid",
"cls": "FC5_Raid.cls FC5_RaidData.cls",
"vs": [
3000,
4000
],
"line": "/x --device=1 --level=RAID1 raid.1 raid.2 --device=QX",
"text": null
},
{
"cmd": "raid",
"cls": "FC5_Raid.cls FC5_RaidData.cls",
"vs": [
3000,
4000
],
"line": "/x --device=1 --level=RAID1 raid.1 raid.2 --fstype=QX",
"text": "raid /x --device=1 --fstype=\\\"QX\\\" --level=RAID1 --bytes-per-inode=4096 raid.1 raid.2\\n"
},
{
"cmd": "raid",
"cls": "FC5_Raid.cls FC5_RaidData.cls",
"vs": [
3000,
4000
],
"line": "/x --device=1 --level=RAID1 raid.1 raid.2 --level=RAID0",
"text": "raid /x --device=1 --level=RAID0 --bytes-per-inode=4096 raid.1 raid.2\\n"
},
{
"cmd": "raid",
"cls": "FC5_Raid.cls FC5_RaidData.cls",
"vs": [
3000,
4000
],
"line": "/x --device=1 --level=RAID1 raid.1 raid.2 --level=0",
"text": "raid /x --device=1 --level=RAID0 --bytes-per-inode=4096 raid.1 raid.2\\n"
},
{
"cmd": "raid",
"cls": "FC5_Raid.cls FC5_RaidData.cls",
"vs": [
3000,
4000
],
"line": "/x --device=1 --level=RAID1 raid.1 raid.2 --level=RAID1",
"text": "raid /x --device=1 --level=RAID1 --bytes-per-inode=4096 raid.1 raid.2\\n"
},
{
"cmd": "raid",
"cls": "FC5_Raid.cls FC5_RaidData.cls",
"vs": [
3000,
4000
],
"line": "/x --device=1 --level=RAID1 raid.1 raid.2 --level=1",
"text": "raid /x --device=1 --level=RAID1 --bytes-per-inode=4096 raid.1 raid.2\\n"
},
{
"cmd": "raid",
"cls": "FC5_Raid.cls FC5_RaidData.cls",
"vs": [
3000,
4000
],
"line": "/x --device=1 --level=RAID1 raid.1 raid.2 --level=RAID5",
"text": "raid /x --device=1 --level=RAID5 --bytes-per-inode=4096 raid.1 raid.2\\n"
},
{
"cmd": "raid",
"cls": "FC5_Raid.cls FC5_RaidData.cls",
"vs": [
3000,
4000
],
"line": "/x --device=1 --level=RAID1 raid.1 raid.2 --level=5",
"text": "raid /x --device=1 --level=RAID5 --bytes-per-inode=4096 raid.1 raid.2\\n"
},
{
"cmd": "raid",
"cls": "FC5_Raid.cls FC5_RaidData.cls",
"vs": [
3000,
4000
],
"line": "/x --device=1 --level=RAID1 raid.1 raid.2 --level=RAID6",
"text": "raid /x --device=1 --level=RAID6 --bytes-per-inode=4096 raid.1 raid.2\\n"
},
{
"cmd": "raid",
"cls": "FC5_Raid.cls FC5_RaidData.cls",
"vs": [
3000,
4000
],
"line": "/x --device=1 --level=RAID1 raid.1 raid.2 --level=6",
"text": "raid /x --device=1 --level=RAID6 --bytes-per-inode=4096 raid.1 raid.2\\n"
},
{
"cmd": "raid",
"cls": "FC5_Raid.cls FC5_RaidData.cls",
"vs": [
3000,
4000
],
"line": "/x --device=1 --level=RAID1 raid.1 raid.2 --level=RAID10",
"text": null
},
{
"cmd": "raid",
"cls": "FC5_Raid.cls FC5_RaidData.cls",
"vs": [
3000,
4000
],
"line": "/x --device=1 --level=RAID1 raid.1 raid.2 --level=10",
"text": null
},
{
"cmd": "raid",
"cls": "FC5_Raid.cls FC5_RaidData.cls",
"vs": [
3000,
4000
],
"line": "/x --device=1 --level=RAID1 raid.1 raid.2 --noformat",
"text": null
},
{
"cmd": "raid",
"cls": "FC5_Raid.cls FC5_RaidData.cls",
"vs": [
3000,
4000
],
"line": "/x --device=1 --level=RAID1 raid.1 raid.2 --spares=42",
"text": "raid /x --device=1 --level=RAID1 --spares=42 --bytes-per-inode=4096 raid.1 raid.2\\n"
},
{
"cmd": "raid",
"cls": "FC5_Raid.cls FC5_RaidData.cls",
"vs": [
3000,
4000
],
"line": "/x --device=1 --level=RAID1 raid.1 raid.2 --useexisting",
"text": null
},
{
"cmd": "raid",
"cls": "FC5_Raid.cls FC5_RaidData.cls",
"vs": [
3000,
4000
],
"line": "/x --device=1 --level=RAID1 raid.1 raid.2 --fsoptions=QX",
"text": "raid /x --device=1 --level=RAID1 --fsoptions=\\\"QX\\\" --bytes-per-inode=4096 raid.1 raid.2\\n"
},
{
"cmd": "raid",
"cls": "FC5_Raid.cls FC5_RaidData.cls",
"vs": [
3000,
4000
],
"line": "/x --device=1 --level=RAID1 raid.1 raid.2 --bytes-per-inode=QX",
"text": null
},
{
"cmd": "raid",
"cls": "FC5_Raid.cls FC5_RaidData.cls",
"vs": [
3000,
4000
],
"line": "/x --device=1 --level=RAID1 raid.1 raid.2 --fsprofile=QX",
"text": null
},
{
"cmd": "raid",
"cls": "FC5_Raid.cls FC5_RaidData.cls",
"vs": [
3000,
4000
],
"line": "/x --device=1 --level=RAID1 raid.1 raid.2 --encrypted",
"text": null
},
{
"cmd": "raid",
"cls": "FC5_Raid.cls FC5_RaidData.cls",
"vs": [
3000,
4000
],
"line": "/x --device=1 --level=RAID1 raid.1 raid.2 --passphrase=QX",
"text": null
},
{
"cmd": "raid",
"cls": "FC5_Raid.cls FC5_RaidData.cls",
"vs": [
3000,
4000
],
"line": "/x --device=1 --level=RAID1 raid.1 raid.2 --escrowcert=QX",
"text": null
},
{
"cmd": "raid",
"cls": "FC5_Raid.cls FC5_RaidData.cls",
"vs": [
3000,
4000
],
"line": "/x --device=1 --level=RAID1 raid.1 raid.2 --backuppassphrase",
"text": null
},
{
"cmd": "raid",
"cls": "FC5_Raid.cls FC5_RaidData.cls",
"vs": [
3000,
4000
],
"line": "/x --device=1 --level=RAID1 raid.1 raid.2 --level=RAID4",
"text": null
},
{
"cmd": "raid",
"cls": "FC5_Raid.cls FC5_RaidData.cls",
"vs": [
3000,
4000
],
"line": "/x --device=1 --level=RAID1 raid.1 raid.2 --level=4",
"text": null
},
{
"cmd": "raid",
"cls": "FC5_Raid.cls FC5_RaidData.cls",
"vs": [
3000,
4000
],
"line": "/x --device=1 --level=RAID1 raid.1 raid.2 --label=QX",
"text": null
},
{
"cmd": "raid",
"cls": "FC5_Raid.cls FC5_RaidData.cls",
"vs": [
3000,
4000
],
"line": "/x --device=1 --level=RAID1 raid.1 raid.2 --cipher=QX",
"text": null
},
{
"cmd": "raid",
"cls": "FC5_Raid.cls FC5_RaidData.cls",
"vs": [
3000,
4000
],
"line": "/x --device=1 --level=RAID1 raid.1 raid.2 --mkfsoptions=QX",
"text": null
},
{
"cmd": "raid",
"cls": "FC5_Raid.cls FC5_RaidData.cls",
"vs": [
3000,
4000
],
"line": "/x --device=1 --level=RAID1 raid.1 raid.2 --chunksize=42",
"text": null
},
{
"cmd": "raid",
"cls": "FC5_Raid.cls FC5_RaidData.cls",
"vs": [
3000,
4000
],
"line": "/x --device=1 --level=RAID1 raid.1 raid.2 --luks-version=QX",
"text": null
},
{
"cmd": "raid",
"cls": "FC5_Raid.cls FC5_RaidData.cls",
"vs": [
3000,
4000
],
"line": "/x --device=1 --level=RAID1 raid.1 raid.2 --pbkdf=QX",
"text": null
},
{
"cmd": "raid",
"cls": "FC5_Raid.cls FC5_RaidData.cls",
"vs": [
3000,
4000
],
"line": "/x --device=1 --level=RAID1 raid.1 raid.2 --pbkdf-memory=42",
"text": null
},
{
"cmd": "raid",
"cls": "FC5_Raid.cls FC5_RaidData.cls",
"vs": [
3000,
4000
],
"line": "/x --device=1 --level=RAID1 raid.1 raid.2 --pbkdf-time=42",
"text": null
},
{
"cmd": "raid",
"cls": "FC5_Raid.cls FC5_RaidData.cls",
"vs": [
3000,
4000
],
"line": "/x --device=1 --level=RAID1 raid.1 raid.2 --pbkdf-iterations=42",
"text": null
},
{
"cmd": "raid",
"cls": "FC5_Raid.cls FC5_RaidData.cls",
"vs": [
3000,
4000
],
"line": "/x --device=1 --level=RAID1 raid.1 raid.2 --bytes-per-inode=42",
"text": "raid /x --device=1 --level=RAID1 --bytes-per-inode=42 raid.1 raid.2\\n"
},
{
"cmd": "raid",
"cls": "FC5_Raid.cls FC5_RaidData.cls",
"vs": [
3000,
4000
],
"line": "/x --device=1 --level=RAID1 raid.1 raid.2 --encrypted --passphrase=QX",
"text": null
},
{
"cmd": "raid",
"cls": "FC5_Raid.cls FC5_RaidData.cls",
"vs": [
3000,
4000
],
"line": "/x --device=1 --level=RAID1 raid.1 raid.2 --encrypted --escrowcert=QX",
"text": null
},
{
"cmd": "raid",
"cls": "FC5_Raid.cls FC5_RaidData.cls",
"vs": [
3000,
4000
],
"line": "/x --device=1 --level=RAID1 raid.1 raid.2 --encrypted --escrowcert=c --backuppassphrase",
"text": null
},
{
"cmd": "raid",
"cls": "FC5_Raid.cls FC5_RaidData.cls",
"vs": [
3000,
4000
],
"line": "/x --device=1 --level=RAID1 raid.1 raid.2 --encrypted --cipher=QX",
"text": null
},
{
"cmd": "raid",
"cls": "FC5_Raid.cls FC5_RaidData.cls",
"vs": [
3000,
4000
],
"line": "/x --device=1 --level=RAID1 raid.1 raid.2 --encrypted --luks-version=QX",
"text": null
},
{
"cmd": "raid",
"cls": "FC5_Raid.cls FC5_RaidData.cls",
"vs": [
3000,
4000
],
"line": "/x --device=1 --level=RAID1 raid.1 raid.2 --encrypted --pbkdf=QX",
"text": null
},
{
"cmd": "raid",
"cls": "FC5_Raid.cls FC5_RaidData.cls",
"vs": [
3000,
4000
],
"line": "/x --device=1 --level=RAID1 raid.1 raid.2 --encrypted --pbkdf-memory=42",
"text": null
},
{
"cmd": "raid",
"cls": "FC5_Raid.cls FC5_RaidData.cls",
"vs": [
3000,
4000
],
"line": "/x --device=1 --level=RAID1 raid.1 raid.2 --encrypted --pbkdf-time=42",
"text": null
},
{
"cmd": "raid",
"cls": "FC5_Raid.cls FC5_RaidData.cls",
"vs": [
3000,
4000
],
"line": "/x --device=1 --level=RAID1 raid.1 raid.2 --encrypted --pbkdf-iterations=42",
"text": null
},
{
"cmd": "raid",
"cls": "FC5_Raid.cls FC5_RaidData.cls",
"vs": [
3000,
4000
],
"line": "/x --device=1 --level=RAID1 raid.1 raid.2 raid.3 --spares=1 --fstype=ext4 --fsoptions=o --fsprofile=f --encrypted",
"text": null
},
{
"cmd": "raid",
"cls": "FC5_Raid.cls FC5_RaidData.cls",
"vs": [
3000,
4000
],
"line": "/x --device=1 --noformat",
"text": "raid /x --device=1 --noformat --useexisting --bytes-per-inode=4096\\n"
},
{
"cmd": "raid",
"cls": "FC5_Raid.cls FC5_RaidData.cls",
"vs": [
3000,
4000
],
"line": "/x --device=1 --noformat --fstype=ext4",
"text": "raid /x --device=1 --fstype=\\\"ext4\\\" --noformat --useexisting --bytes-per-inode=4096\\n"
},
{
"cmd": "raid",
"cls": "FC5_Raid.cls FC5_RaidData.cls",
"vs": [
3000,
4000
],
"line": "/x --device=1 --noformat --label=QX",
"text": null
},
{
"cmd": "raid",
"cls": "FC5_Raid.cls FC5_RaidData.cls",
"vs": [
3000,
4000
],
"line": "/x --device=1 --useexisting",
"text": "raid /x --device=1 --useexisting --bytes-per-inode=4096\\n"
},
{
"cmd": "raid",
"cls": "FC5_Raid.cls FC5_RaidData.cls",
"vs": [
3000,
4000
],
"line": "/x --device=1 --useexisting --fstype=ext4",
"text": "raid /x --device=1 --fstype=\\\"ext4\\\" --useexisting --bytes-per-inode=4096\\n"
},
{
"cmd": "raid",
"cls": "FC5_Raid.cls FC5_RaidData.cls",
"vs": [
3000,
4000
],
"line": "/x --device=1 --useexisting --label=QX",
"text": null
},
{
"cmd": "raid",
"cls": "FC5_Raid.cls FC5_RaidData.cls",
"vs": [
3000,
4000
],
"line": "/x --device=1 --level=RAID1 raid.1 raid.2 raid.3",
"text": "raid /x --device=1 --level=RAID1 --bytes-per-inode=4096 raid.1 raid.2 raid.3\\n"
},
{
"cmd": "raid",
"cls": "FC5_Raid.cls FC5_RaidData.cls",
"vs": [
3000,
4000
],
"line": "/x --device=1 --level=RAID1 raid.1 raid.2 raid.3 --device=md7",
"text": "raid /x --device=7 --level=RAID1 --bytes-per-inode=4096 raid.1 raid.2 raid.3\\n"
},
{
"cmd": "raid",
"cls": "FC5_Raid.cls FC5_RaidData.cls",
"vs": [
3000,
4000
],
"line": "/x --device=1 --level=RAID1 raid.1 raid.2 raid.3 --device=data",
"text": null
},
{
"cmd": "raid",
"cls": "FC5_Raid.cls FC5_RaidData.cls",
"vs": [
3000,
4000
],
"line": "/x --device=1 --level=RAID1 raid.1 raid.2 raid.3 --level=0",
"text": "raid /x --device=1 --level=RAID0 --bytes-per-inode=4096 raid.1 raid.2 raid.3\\n"
},
{
"cmd": "raid",
"cls": "FC5_Raid.cls FC5_RaidData.cls",
"vs": [
3000,
4000
],
"line": "/x --device=1 --level=RAID1 raid.1 raid.2 raid.3 --level=RAID5",
"text": "raid /x --device=1 --level=RAID5 --bytes-per-inode=4096 raid.1 raid.2 raid.3\\n"
},
{
"cmd": "raid",
"cls": "FC5_Raid.cls FC5_RaidData.cls",
"vs": [
3000,
4000
],
"line": "/x --device=1 --level=RAID1 raid.1 raid.2 raid.3 --level=raid6",
"text": "raid /x --device=1 --level=RAID6 --bytes-per-inode=4096 raid.1 raid.2 raid.3\\n"
},
{
"cmd": "raid",
"cls": "FC5_Raid.cls FC5_RaidData.cls",
"vs": [
3000,
4000
],
"line": "/x --device=1 --level=RAID1 raid.1 raid.2 raid.3 --level=10",
"text": null
},
{
"cmd": "raid",
"cls": "FC5_Raid.cls FC5_RaidData.cls",
"vs": [
3000,
4000
],
"line": "/x --device=1 --level=RAID1 raid.1 raid.2 raid.3 --level=linear",
"text": null
},
{
"cmd": "raid",
"cls": "FC5_Raid.cls FC5_RaidData.cls",
"vs": [
3000,
4000
],
"line": "/x --device=1 --level=RAID1 raid.1 raid.2 raid.3 --spares=1",
"text": "raid /x --device=1 --level=RAID1 --spares=1 --bytes-per-inode=4096 raid.1 raid.2 raid.3\\n"
},
{
"cmd": "raid",
"cls": "FC5_Raid.cls FC5_RaidData.cls",
"vs": [
3000,
4000
],
"line": "/x --device=1 --level=RAID1 raid.1 raid.2 raid.3 --spares=2",
"text": "raid /x --device=1 --level=RAID1 --spares=2 --bytes-per-inode=4096 raid.1 raid.2 raid.3\\n"
},
{
"cmd": "key",
"cls": "RHEL5_Key.cls",
"vs": [
4100,
11100
],
"line": "K",
"text": "key K\\n"
},
{
"cmd": "key",
"cls": "RHEL5_Key.cls",
"vs": [
4100,
11100
],
"line": "K --skip",
"text": "key --skip\\n"
},
{
"cmd": "key",
"cls": "RHEL5_Key.cls",
"vs": [
4100,
11100
],
"line": "--skip",
"text": "key --skip\\n"
},
{
"cmd": "raid",
"cls": "RHEL5_Raid.cls RHEL5_RaidData.cls",
"vs": [
4100
],
"line": "/x --device=1 --level=RAID1 raid.1 raid.2",
"text": "raid /x --device=1 --level=RAID1 --bytes-per-inode=4096 raid.1 raid.2\\n"
},
{
"cmd": "raid",
"cls": "RHEL5_Raid.cls RHEL5_RaidData.cls",
"vs": [
4100
],
"line": "/x --device=1 --level=RAID1 raid.1 raid.2 --device=QX",
"text": null
},
{
"cmd": "raid",
"cls": "RHEL5_Raid.cls RHEL5_RaidData.cls",
"vs": [
4100
],
"line": "/x --device=1 --level=RAID1 raid.1 raid.2 --fstype=QX",
"text": "raid /x --device=1 --fstype=\\\"QX\\\" --level=RAID1 --bytes-per-inode=4096 raid.1 raid.2\\n"
},
{
"cmd": "raid",
"cls": "RHEL5_Raid.cls RHEL5_RaidData.cls",
"vs": [
4100
],
"line": "/x --device=1 --level=RAID1 raid.1 raid.2 --level=RAID0",
"text": "raid /x --device=1 --level=RAID0 --bytes-per-inode=4096 raid.1 raid.2\\n"
},
{
"cmd": "raid",
"cls": "RHEL5_Raid.cls RHEL5_RaidData.cls",
"vs": [
4100
],
"line": "/x --device=1 --level=RAID1 raid.1 raid.2 --level=0",
"text": "raid /x --device=1 --level=RAID0 --bytes-per-inode=4096 raid.1 raid.2\\n"
},
{
"cmd": "raid",
"cls": "RHEL5_Raid.cls RHEL5_RaidData.cls",
"vs": [
4100
],
"line": "/x --device=1 --level=RAID1 raid.1 raid.2 --level=RAID1",
"text": "raid /x --device=1 --level=RAID1 --bytes-per-inode=4096 raid.1 raid.2\\n"
},
{
"cmd": "raid",
"cls": "RHEL5_Raid.cls RHEL5_RaidData.cls",
"vs": [
4100
],
"line": "/x --device=1 --level=RAID1 raid.1 raid.2 --level=1",
"text": "raid /x --device=1 --level=RAID1 --bytes-per-inode=4096 raid.1 raid.2\\n"
},
{
"cmd": "raid",
"cls": "RHEL5_Raid.cls RHEL5_RaidData.cls",
"vs": [
4100
],
"line": "/x --device=1 --level=RAID1 raid.1 raid.2 --level=RAID5",
"text": "raid /x --device=1 --level=RAID5 --bytes-per-inode=4096 raid.1 raid.2\\n"
},
{
"cmd": "raid",
"cls": "RHEL5_Raid.cls RHEL5_RaidData.cls",
"vs": [
4100
],
"line": "/x --device=1 --level=RAID1 raid.1 raid.2 --level=5",
"text": "raid /x --device=1 --level=RAID5 --bytes-per-inode=4096 raid.1 raid.2\\n"
},
{
"cmd": "raid",
"cls": "RHEL5_Raid.cls RHEL5_RaidData.cls",
"vs": [
4100
],
"line": "/x --device=1 --level=RAID1 raid.1 raid.2 --level=RAID6",
"text": "raid /x --device=1 --level=RAID6 --bytes-per-inode=4096 raid.1 raid.2\\n"
},
{
"cmd": "raid",
"cls": "RHEL5_Raid.cls RHEL5_RaidData.cls",
"vs": [
4100
],
"line": "/x --device=1 --level=RAID1 raid.1 raid.2 --level=6",
"text": "raid /x --device=1 --level=RAID6 --bytes-per-inode=4096 raid.1 raid.2\\n"
},
{
"cmd": "raid",
"cls": "RHEL5_Raid.cls RHEL5_RaidData.cls",
"vs": [
4100
],
"line": "/x --device=1 --level=RAID1 raid.1 raid.2 --level=RAID10",
"text": "raid /x --device=1 --level=RAID10 --bytes-per-inode=4096 raid.1 raid.2\\n"
},
{
"cmd": "raid",
"cls": "RHEL5_Raid.cls RHEL5_RaidData.cls",
"vs": [
4100
],
"line": "/x --device=1 --level=RAID1 raid.1 raid.2 --level=10",
"text": "raid /x --device=1 --level=RAID10 --bytes-per-inode=4096 raid.1 raid.2\\n"
},
{
"cmd": "raid",
"cls": "RHEL5_Raid.cls RHEL5_RaidData.cls",
"vs": [
4100
],
"line": "/x --device=1 --level=RAID1 raid.1 raid.2 --noformat",
"text": null
},
{
"cmd": "raid",
"cls": "RHEL5_Raid.cls RHEL5_RaidData.cls",
"vs": [
4100
],
"line": "/x --device=1 --level=RAID1 raid.1 raid.2 --spares=42",
"text": "raid /x --device=1 --level=RAID1 --spares=42 --bytes-per-inode=4096 raid.1 raid.2\\n"
},
{
"cmd": "raid",
"cls": "RHEL5_Raid.cls RHEL5_RaidData.cls",
"vs": [
4100
],
"line": "/x --device=1 --level=RAID1 raid.1 raid.2 --useexisting",
"text": null
},
{
"cmd": "raid",
"cls": "RHEL5_Raid.cls RHEL5_RaidData.cls",
"vs": [
4100
],
"line": "/x --device=1 --level=RAID1 raid.1 raid.2 --fsoptions=QX",
"text": "raid /x --device=1 --level=RAID1 --fsoptions=\\\"QX\\\" --bytes-per-inode=4096 raid.1 raid.2\\n"
},
{
"cmd": "raid",
"cls": "RHEL5_Raid.cls RHEL5_RaidData.cls",
"vs": [
4100
],
"line": "/x --device=1 --level=RAID1 raid.1 raid.2 --bytes-per-inode=QX",
"text": null
},
{
"cmd": "raid",
"cls": "RHEL5_Raid.cls RHEL5_RaidData.cls",
"vs": [
4100
],
"line": "/x --device=1 --level=RAID1 raid.1 raid.2 --fsprofile=QX",
"text": null
},
{
"cmd": "raid",
"cls": "RHEL5_Raid.cls RHEL5_RaidData.cls",
"vs": [
4100
],
"line": "/x --device=1 --level=RAID1 raid.1 raid.2 --encrypted",
"text": "raid /x --device=1 --level=RAID1 --bytes-per-inode=4096 --encrypted raid.1 raid.2\\n"
},
{
"cmd": "raid",
"cls": "RHEL5_Raid.cls RHEL5_RaidData.cls",
"vs": [
4100
],
"line": "/x --device=1 --level=RAID1 raid.1 raid.2 --passphrase=QX",
"text": "raid /x --device=1 --level=RAID1 --bytes-per-inode=4096 raid.1 raid.2\\n"
},
{
"cmd": "raid",
"cls": "RHEL5_Raid.cls RHEL5_RaidData.cls",
"vs": [
4100
],
"line": "/x --device=1 --level=RAID1 raid.1 raid.2 --escrowcert=QX",
"text": null
},
{
"cmd": "raid",
"cls": "RHEL5_Raid.cls RHEL5_RaidData.cls",
"vs": [
4100
],
"line": "/x --device=1 --level=RAID1 raid.1 raid.2 --backuppassphrase",
"text": null
},
{
"cmd": "raid",
"cls": "RHEL5_Raid.cls RHEL5_RaidData.cls",
"vs": [
4100
],
"line": "/x --device=1 --level=RAID1 raid.1 raid.2 --level=RAID4",
"text": null
},
{
"cmd": "raid",
"cls": "RHEL5_Raid.cls RHEL5_RaidData.cls",
"vs": [
4100
],
"line": "/x --device=1 --level=RAID1 raid.1 raid.2 --level=4",
"text": null
},
{
"cmd": "raid",
"cls": "RHEL5_Raid.cls RHEL5_RaidData.cls",
"vs": [
4100
],
"line": "/x --device=1 --level=RAID1 raid.1 raid.2 --label=QX",
"text": null
},
{
"cmd": "raid",
"cls": "RHEL5_Raid.cls RHEL5_RaidData.cls",
"vs": [
4100
],
"line": "/x --device=1 --level=RAID1 raid.1 raid.2 --cipher=QX",
"text": null
},
{
"cmd": "raid",
"cls": "RHEL5_Raid.cls RHEL5_RaidData.cls",
"vs": [
4100
],
"line": "/x --device=1 --level=RAID1 raid.1 raid.2 --mkfsoptions=QX",
"text": null
},
{
"cmd": "raid",
"cls": "RHEL5_Raid.cls RHEL5_RaidData.cls",
"vs": [
4100
],
"line": "/x --device=1 --level=RAID1 raid.1 raid.2 --chunksize=42",
"text": null
},
{
"cmd": "raid",
"cls": "RHEL5_Raid.cls RHEL5_RaidData.cls",
"vs": [
4100
],
"line": "/x --device=1 --level=RAID1 raid.1 raid.2 --luks-version=QX",
"text": null
},
{
"cmd": "raid",
"cls": "RHEL5_Raid.cls RHEL5_RaidData.cls",
"vs": [
4100
],
"line": "/x --device=1 --level=RAID1 raid.1 raid.2 --pbkdf=QX",
"text": null
},
{
"cmd": "raid",
"cls": "RHEL5_Raid.cls RHEL5_RaidData.cls",
"vs": [
4100
],
"line": "/x --device=1 --level=RAID1 raid.1 raid.2 --pbkdf-memory=42",
"text": null
},
{
"cmd": "raid",
"cls": "RHEL5_Raid.cls RHEL5_RaidData.cls",
"vs": [
4100
],
"line": "/x --device=1 --level=RAID1 raid.1 raid.2 --pbkdf-time=42",
"text": null
},
{
"cmd": "raid",
"cls": "RHEL5_Raid.cls RHEL5_RaidData.cls",
"vs": [
4100
],
"line": "/x --device=1 --level=RAID1 raid.1 raid.2 --pbkdf-iterations=42",
"text": null
},
{
"cmd": "raid",
"cls": "RHEL5_Raid.cls RHEL5_RaidData.cls",
"vs": [
4100
],
"line": "/x --device=1 --level=RAID1 raid.1 raid.2 --bytes-per-inode=42",
"text": "raid /x --device=1 --level=RAID1 --bytes-per-inode=42 raid.1 raid.2\\n"
},
{
"cmd": "raid",
"cls": "RHEL5_Raid.cls RHEL5_RaidData.cls",
"vs": [
4100
],
"line": "/x --device=1 --level=RAID1 raid.1 raid.2 --encrypted --passphrase=QX",
"text": "raid /x --device=1 --level=RAID1 --bytes-per-inode=4096 --encrypted --passphrase=\\\"QX\\\" raid.1 raid.2\\n"
},
{
"cmd": "raid",
"cls": "RHEL5_Raid.cls RHEL5_RaidData.cls",
"vs": [
4100
],
"line": "/x --device=1 --level=RAID1 raid.1 raid.2 --encrypted --escrowcert=QX",
"text": null
},
{
"cmd": "raid",
"cls": "RHEL5_Raid.cls RHEL5_RaidData.cls",
"vs": [
4100
],
"line": "/x --device=1 --level=RAID1 raid.1 raid.2 --encrypted --escrowcert=c --backuppassphrase",
"text": null
},
{
"cmd": "raid",
"cls": "RHEL5_Raid.cls RHEL5_RaidData.cls",
"vs": [
4100
],
"line": "/x --device=1 --level=RAID1 raid.1 raid.2 --encrypted --cipher=QX",
"text": null
},
{
"cmd": "raid",
"cls": "RHEL5_Raid.cls RHEL5_RaidData.cls",
"vs": [
4100
],
"line": "/x --device=1 --level=RAID1 raid.1 raid.2 --encrypted --luks-version=QX",
"text": null
},
{
"cmd": "raid",
"cls": "RHEL5_Raid.cls RHEL5_RaidData.cls",
"vs": [
4100
],
"line": "/x --device=1 --level=RAID1 raid.1 raid.2 --encrypted --pbkdf=QX",
"text": null
},
{
"cmd": "raid",
"cls": "RHEL5_Raid.cls RHEL5_RaidData.cls",
"vs": [
4100
],
"line": "/x --device=1 --level=RAID1 raid.1 raid.2 --encrypted --pbkdf-memory=42",
"text": null
},
{
"cmd": "raid",
"cls": "RHEL5_Raid.cls RHEL5_RaidData.cls",
"vs": [
4100
],
"line": "/x --device=1 --level=RAID1 raid.1 raid.2 --encrypted --pbkdf-time=42",
"text": null
},
{
"cmd": "raid",
"cls": "RHEL5_Raid.cls RHEL5_RaidData.cls",
"vs": [
4100
],
"line": "/x --device=1 --level=RAID1 raid.1 raid.2 --encrypted --pbkdf-iterations=42",
"text": null
},
{
"cmd": "raid",
"cls": "RHEL5_Raid.cls RHEL5_RaidData.cls",
"vs": [
4100
],
"line": "/x --device=1 --level=RAID1 raid.1 raid.2 raid.3 --spares=1 --fstype=ext4 --fsoptions=o --fsprofile=f --encrypted",
"text": null
},
{
"cmd": "raid",
"cls": "RHEL5_Raid.cls RHEL5_RaidData.cls",
"vs": [
4100
],
"line": "/x --device=1 --noformat",
"text": "raid /x --device=1 --noformat --useexisting --bytes-per-inode=4096\\n"
},
{
"cmd": "raid",
"cls": "RHEL5_Raid.cls RHEL5_RaidData.cls",
"vs": [
4100
],
"line": "/x --device=1 --noformat --fstype=ext4",
"text": "raid /x --device=1 --fstype=\\\"ext4\\\" --noformat --useexisting --bytes-per-inode=4096\\n"
},
{
"cmd": "raid",
"cls": "RHEL5_Raid.cls RHEL5_RaidData.cls",
"vs": [
4100
],
"line": "/x --device=1 --noformat --label=QX",
"text": null
},
{
"cmd": "raid",
"cls": "RHEL5_Raid.cls RHEL5_RaidData.cls",
"vs": [
4100
],
"line": "/x --device=1 --useexisting",
"text": "raid /x --device=1 --useexisting --bytes-per-inode=4096\\n"
},
{
"cmd": "raid",
"cls": "RHEL5_Raid.cls RHEL5_RaidData.cls",
"vs": [
4100
],
"line": "/x --device=1 --useexisting --fstype=ext4",
"text": "raid /x --device=1 --fstype=\\\"ext4\\\" --useexisting --bytes-per-inode=4096\\n"
},
{
"cmd": "raid",
"cls": "RHEL5_Raid.cls RHEL5_RaidData.cls",
"vs": [
4100
],
"line": "/x --device=1 --useexisting --label=QX",
"text": null
},
{
"cmd": "raid",
"cls": "RHEL5_Raid.cls RHEL5_RaidData.cls",
"vs": [
4100
],
"line": "/x --device=1 --level=RAID1 raid.1 raid.2 raid.3",
"text": "raid /x --device=1 --level=RAID1 --bytes-per-inode=4096 raid.1 raid.2 raid.3\\n"
},
{
"cmd": "raid",
"cls": "RHEL5_Raid.cls RHEL5_RaidData.cls",
"vs": [
4100
],
"line": "/x --device=1 --level=RAID1 raid.1 raid.2 raid.3 --device=md7",
"text": "raid /x --device=7 --level=RAID1 --bytes-per-inode=4096 raid.1 raid.2 raid.3\\n"
},
{
"cmd": "raid",
"cls": "RHEL5_Raid.cls RHEL5_RaidData.cls",
"vs": [
4100
],
"line": "/x --device=1 --level=RAID1 raid.1 raid.2 raid.3 --device=data",
"text": null
},
{
"cmd": "raid",
"cls": "RHEL5_Raid.cls RHEL5_RaidData.cls",
"vs": [
4100
],
"line": "/x --device=1 --level=RAID1 raid.1 raid.2 raid.3 --level=0",
"text": "raid /x --device=1 --level=RAID0 --bytes-per-inode=4096 raid.1 raid.2 raid.3\\n"
},
{
"cmd": "raid",
"cls": "RHEL5_Raid.cls RHEL5_RaidData.cls",
"vs": [
4100
],
"line": "/x --device=1 --level=RAID1 raid.1 raid.2 raid.3 --level=RAID5",
"text": "raid /x --device=1 --level=RAID5 --bytes-per-inode=4096 raid.1 raid.2 raid.3\\n"
},
{
"cmd": "raid",
"cls": "RHEL5_Raid.cls RHEL5_RaidData.cls",
"vs": [
4100
],
"line": "/x --device=1 --level=RAID1 raid.1 raid.2 raid.3 --level=raid6",
"text": "raid /x --device=1 --level=RAID6 --bytes-per-inode=4096 raid.1 raid.2 raid.3\\n"
},
{
"cmd": "raid",
"cls": "RHEL5_Raid.cls RHEL5_RaidData.cls",
"vs": [
4100
],
"line": "/x --device=1 --level=RAID1 raid.1 raid.2 raid.3 --level=10",
"text": "raid /x --device=1 --level=RAID10 --bytes-per-inode=4096 raid.1 raid.2 raid.3\\n"
},
{
"cmd": "raid",
"cls": "RHEL5_Raid.cls RHEL5_RaidData.cls",
"vs": [
4100
],
"line": "/x --device=1 --level=RAID1 raid.1 raid.2 raid.3 --level=linear",
"text": null
},
{
"cmd": "raid",
"cls": "RHEL5_Raid.cls RHEL5_RaidData.cls",
"vs": [
4100
],
"line": "/x --device=1 --level=RAID1 raid.1 raid.2 raid.3 --spares=1",
"text": "raid /x --device=1 --level=RAID1 --spares=1 --bytes-per-inode=4096 raid.1 raid.2 raid.3\\n"
},
{
"cmd": "raid",
"cls": "RHEL5_Raid.cls RHEL5_RaidData.cls",
"vs": [
4100
],
"line": "/x --device=1 --level=RAID1 raid.1 raid.2 raid.3 --spares=2",
"text": "raid /x --device=1 --level=RAID1 --spares=2 --bytes-per-inode=4096 raid.1 raid.2 raid.3\\n"
},
{
"cmd": "raid",
"cls": "RHEL6_Raid.cls RHEL6_RaidData.cls",
"vs": [
11100
],
"line": "/x --device=1 --level=RAID1 raid.1 raid.2",
"text": "raid /x --device=1 --level=RAID1 raid.1 raid.2\\n"
},
{
"cmd": "raid",
"cls": "RHEL6_Raid.cls RHEL6_RaidData.cls",
"vs": [
11100
],
"line": "/x --device=1 --level=RAID1 raid.1 raid.2 --device=QX",
"text": null
},
{
"cmd": "raid",
"cls": "RHEL6_Raid.cls RHEL6_RaidData.cls",
"vs": [
11100
],
"line": "/x --device=1 --level=RAID1 raid.1 raid.2 --fstype=QX",
"text": "raid /x --device=1 --fstype=\\\"QX\\\" --level=RAID1 raid.1 raid.2\\n"
},
{
"cmd": "raid",
"cls": "RHEL6_Raid.cls RHEL6_RaidData.cls",
"vs": [
11100
],
"line": "/x --device=1 --level=RAID1 raid.1 raid.2 --level=RAID0",
"text": "raid /x --device=1 --level=RAID0 raid.1 raid.2\\n"
},
{
"cmd": "raid",
"cls": "RHEL6_Raid.cls RHEL6_RaidData.cls",
"vs": [
11100
],
"line": "/x --device=1 --level=RAID1 raid.1 raid.2 --level=0",
"text": "raid /x --device=1 --level=RAID0 raid.1 raid.2\\n"
},
{
"cmd": "raid",
"cls": "RHEL6_Raid.cls RHEL6_RaidData.cls",
"vs": [
11100
],
"line": "/x --device=1 --level=RAID1 raid.1 raid.2 --level=RAID1",
"text": "raid /x --device=1 --level=RAID1 raid.1 raid.2\\n"
},
{
"cmd": "raid",
"cls": "RHEL6_Raid.cls RHEL6_RaidData.cls",
"vs": [
11100
],
"line": "/x --device=1 --level=RAID1 raid.1 raid.2 --level=1",
"text": "raid /x --device=1 --level=RAID1 raid.1 raid.2\\n"
},
{
"cmd": "raid",
"cls": "RHEL6_Raid.cls RHEL6_RaidData.cls",
"vs": [
11100
],
"line": "/x --device=1 --level=RAID1 raid.1 raid.2 --level=RAID5",
"text": "raid /x --device=1 --level=RAID5 raid.1 raid.2\\n"
},
{
"cmd": "raid",
"cls": "RHEL6_Raid.cls RHEL6_RaidData.cls",
"vs": [
11100
],
"line": "/x --device=1 --level=RAID1 raid.1 raid.2 --level=5",
"text": "raid /x --device=1 --level=RAID5 raid.1 raid.2\\n"
},
{
"cmd": "raid",
"cls": "RHEL6_Raid.cls RHEL6_RaidData.cls",
"vs": [
11100
],
"line": "/x --device=1 --level=RAID1 raid.1 raid.2 --level=RAID6",
"text": "raid /x --device=1 --level=RAID6 raid.1 raid.2\\n"
},
{
"cmd": "raid",
"cls": "RHEL6_Raid.cls RHEL6_RaidData.cls",
"vs": [
11100
],
"line": "/x --device=1 --level=RAID1 raid.1 raid.2 --level=6",
"text": "raid /x --device=1 --level=RAID6 raid.1 raid.2\\n"
},
{
"cmd": "raid",
"cls": "RHEL6_Raid.cls RHEL6_RaidData.cls",
"vs": [
11100
],
"line": "/x --device=1 --level=RAID1 raid.1 raid.2 --level=RAID10",
"text": "raid /x --device=1 --level=RAID10 raid.1 raid.2\\n"
},
{
"cmd": "raid",
"cls": "RHEL6_Raid.cls RHEL6_RaidData.cls",
"vs": [
11100
],
"line": "/x --device=1 --level=RAID1 raid.1 raid.2 --level=10",
"text": "raid /x --device=1 --level=RAID10 raid.1 raid.2\\n"
},
{
"cmd": "raid",
"cls": "RHEL6_Raid.cls RHEL6_RaidData.cls",
"vs": [
11100
],
"line": "/x --device=1 --level=RAID1 raid.1 raid.2 --noformat",
"text": null
},
{
"cmd": "raid",
"cls": "RHEL6_Raid.cls RHEL6_RaidData.cls",
"vs": [
11100
],
"line": "/x --device=1 --level=RAID1 raid.1 raid.2 --spares=42",
"text": "raid /x --device=1 --level=RAID1 --spares=42 raid.1 raid.2\\n"
},
{
"cmd": "raid",
"cls": "RHEL6_Raid.cls RHEL6_RaidData.cls",
"vs": [
11100
],
"line": "/x --device=1 --level=RAID1 raid.1 raid.2 --useexisting",
"text": null
},
{
"cmd": "raid",
"cls": "RHEL6_Raid.cls RHEL6_RaidData.cls",
"vs": [
11100
],
"line": "/x --device=1 --level=RAID1 raid.1 raid.2 --fsoptions=QX",
"text": "raid /x --device=1 --level=RAID1 --fsoptions=\\\"QX\\\" raid.1 raid.2\\n"
},
{
"cmd": "raid",
"cls": "RHEL6_Raid.cls RHEL6_RaidData.cls",
"vs": [
11100
],
"line": "/x --device=1 --level=RAID1 raid.1 raid.2 --bytes-per-inode=QX",
"text": "raid /x --device=1 --level=RAID1 raid.1 raid.2\\n"
},
{
"cmd": "raid",
"cls": "RHEL6_Raid.cls RHEL6_RaidData.cls",
"vs": [
11100
],
"line": "/x --device=1 --level=RAID1 raid.1 raid.2 --fsprofile=QX",
"text": "raid /x --device=1 --level=RAID1 --fsprofile=\\\"QX\\\" raid.1 raid.2\\n"
},
{
"cmd": "raid",
"cls": "RHEL6_Raid.cls RHEL6_RaidData.cls",
"vs": [
11100
],
"line": "/x --device=1 --level=RAID1 raid.1 raid.2 --encrypted",
"text": "raid /x --device=1 --level=RAID1 --encrypted raid.1 raid.2\\n"
},
{
"cmd": "raid",
"cls": "RHEL6_Raid.cls RHEL6_RaidData.cls",
"vs": [
11100
],
"line": "/x --device=1 --level=RAID1 raid.1 raid.2 --passphrase=QX",
"text": "raid /x --device=1 --level=RAID1 raid.1 raid.2\\n"
},
{
"cmd": "raid",
"cls": "RHEL6_Raid.cls RHEL6_RaidData.cls",
"vs": [
11100
],
"line": "/x --device=1 --level=RAID1 raid.1 raid.2 --escrowcert=QX",
"text": "raid /x --device=1 --level=RAID1 raid.1 raid.2\\n"
},
{
"cmd": "raid",
"cls": "RHEL6_Raid.cls RHEL6_RaidData.cls",
"vs": [
11100
],
"line": "/x --device=1 --level=RAID1 raid.1 raid.2 --backuppassphrase",
"text": "raid /x --device=1 --level=RAID1 raid.1 raid.2\\n"
},
{
"cmd": "raid",
"cls": "RHEL6_Raid.cls RHEL6_RaidData.cls",
"vs": [
11100
],
"line": "/x --device=1 --level=RAID1 raid.1 raid.2 --level=RAID4",
"text": "raid /x --device=1 --level=RAID4 raid.1 raid.2\\n"
},
{
"cmd": "raid",
"cls": "RHEL6_Raid.cls RHEL6_RaidData.cls",
"vs": [
11100
],
"line": "/x --device=1 --level=RAID1 raid.1 raid.2 --level=4",
"text": "raid /x --device=1 --level=RAID4 raid.1 raid.2\\n"
},
{
"cmd": "raid",
"cls": "RHEL6_Raid.cls RHEL6_RaidData.cls",
"vs": [
11100
],
"line": "/x --device=1 --level=RAID1 raid.1 raid.2 --label=QX",
"text": null
},
{
"cmd": "raid",
"cls": "RHEL6_Raid.cls RHEL6_RaidData.cls",
"vs": [
11100
],
"line": "/x --device=1 --level=RAID1 raid.1 raid.2 --cipher=QX",
"text": "raid /x --device=1 --level=RAID1 raid.1 raid.2\\n"
},
{
"cmd": "raid",
"cls": "RHEL6_Raid.cls RHEL6_RaidData.cls",
"vs": [
11100
],
"line": "/x --device=1 --level=RAID1 raid.1 raid.2 --mkfsoptions=QX",
"text": null
},
{
"cmd": "raid",
"cls": "RHEL6_Raid.cls RHEL6_RaidData.cls",
"vs": [
11100
],
"line": "/x --device=1 --level=RAID1 raid.1 raid.2 --chunksize=42",
"text": null
},
{
"cmd": "raid",
"cls": "RHEL6_Raid.cls RHEL6_RaidData.cls",
"vs": [
11100
],
"line": "/x --device=1 --level=RAID1 raid.1 raid.2 --luks-version=QX",
"text": null
},
{
"cmd": "raid",
"cls": "RHEL6_Raid.cls RHEL6_RaidData.cls",
"vs": [
11100
],
"line": "/x --device=1 --level=RAID1 raid.1 raid.2 --pbkdf=QX",
"text": null
},
{
"cmd": "raid",
"cls": "RHEL6_Raid.cls RHEL6_RaidData.cls",
"vs": [
11100
],
"line": "/x --device=1 --level=RAID1 raid.1 raid.2 --pbkdf-memory=42",
"text": null
},
{
"cmd": "raid",
"cls": "RHEL6_Raid.cls RHEL6_RaidData.cls",
"vs": [
11100
],
"line": "/x --device=1 --level=RAID1 raid.1 raid.2 --pbkdf-time=42",
"text": null
},
{
"cmd": "raid",
"cls": "RHEL6_Raid.cls RHEL6_RaidData.cls",
"vs": [
11100
],
"line": "/x --device=1 --level=RAID1 raid.1 raid.2 --pbkdf-iterations=42",
"text": null
},
{
"cmd": "raid",
"cls": "RHEL6_Raid.cls RHEL6_RaidData.cls",
"vs": [
11100
],
"line": "/x --device=1 --level=RAID1 raid.1 raid.2 --bytes-per-inode=42",
"text": "raid /x --device=1 --level=RAID1 raid.1 raid.2\\n"
},
{
"cmd": "raid",
"cls": "RHEL6_Raid.cls RHEL6_RaidData.cls",
"vs": [
11100
],
"line": "/x --device=1 --level=RAID1 raid.1 raid.2 --encrypted --passphrase=QX",
"text": "raid /x --device=1 --level=RAID1 --encrypted --passphrase=\\\"QX\\\" raid.1 raid.2\\n"
},
{
"cmd": "raid",
"cls": "RHEL6_Raid.cls RHEL6_RaidData.cls",
"vs": [
11100
],
"line": "/x --device=1 --level=RAID1 raid.1 raid.2 --encrypted --escrowcert=QX",
"text": "raid /x --device=1 --level=RAID1 --encrypted --escrowcert=\\\"QX\\\" raid.1 raid.2\\n"
},
{
"cmd": "raid",
"cls": "RHEL6_Raid.cls RHEL6_RaidData.cls",
"vs": [
11100
],
"line": "/x --device=1 --level=RAID1 raid.1 raid.2 --encrypted --escrowcert=c --backuppassphrase",
"text": "raid /x --device=1 --level=RAID1 --encrypted --escrowcert=\\\"c\\\" --backuppassphrase raid.1 raid.2\\n"
},
{
"cmd": "raid",
"cls": "RHEL6_Raid.cls RHEL6_RaidData.cls",
"vs": [
11100
],
"line": "/x --device=1 --level=RAID1 raid.1 raid.2 --encrypted --cipher=QX",
"text": "raid /x --device=1 --level=RAID1 --encrypted --cipher=\\\"QX\\\" raid.1 raid.2\\n"
},
{
"cmd": "raid",
"cls": "RHEL6_Raid.cls RHEL6_RaidData.cls",
"vs": [
11100
],
"line": "/x --device=1 --level=RAID1 raid.1 raid.2 --encrypted --luks-version=QX",
"text": null
},
{
"cmd": "raid",
"cls": "RHEL6_Raid.cls RHEL6_RaidData.cls",
"vs": [
11100
],
"line": "/x --device=1 --level=RAID1 raid.1 raid.2 --encrypted --pbkdf=QX",
"text": null
},
{
"cmd": "raid",
"cls": "RHEL6_Raid.cls RHEL6_RaidData.cls",
"vs": [
11100
],
"line": "/x --device=1 --level=RAID1 raid.1 raid.2 --encrypted --pbkdf-memory=42",
"text": null
},
{
"cmd": "raid",
"cls": "RHEL6_Raid.cls RHEL6_RaidData.cls",
"vs": [
11100
],
"line": "/x --device=1 --level=RAID1 raid.1 raid.2 --encrypted --pbkdf-time=42",
"text": null
},
{
"cmd": "raid",
"cls": "RHEL6_Raid.cls RHEL6_RaidData.cls",
"vs": [
11100
],
"line": "/x --device=1 --level=RAID1 raid.1 raid.2 --encrypted --pbkdf-iterations=42",
"text": null
},
{
"cmd": "raid",
"cls": "RHEL6_Raid.cls RHEL6_RaidData.cls",
"vs": [
11100
],
"line": "/x --device=1 --level=RAID1 raid.1 raid.2 raid.3 --spares=1 --fstype=ext4 --fsoptions=o --fsprofile=f --encrypted",
"text": "raid /x --device=1 --fstype=\\\"ext4\\\" --level=RAID1 --spares=1 --fsoptions=\\\"o\\\" --fsprofile=\\\"f\\\" --encrypted raid.1 raid.2 raid.3\\n"
},
{
"cmd": "raid",
"cls": "RHEL6_Raid.cls RHEL6_RaidData.cls",
"vs": [
11100
],
"line": "/x --device=1 --noformat",
"text": "raid /x --device=1 --noformat --useexisting\\n"
},
{
"cmd": "raid",
"cls": "RHEL6_Raid.cls RHEL6_RaidData.cls",
"vs": [
11100
],
"line": "/x --device=1 --noformat --fstype=ext4",
"text": "raid /x --device=1 --fstype=\\\"ext4\\\" --noformat --useexisting\\n"
},
{
"cmd": "raid",
"cls": "RHEL6_Raid.cls RHEL6_RaidData.cls",
"vs": [
11100
],
"line": "/x --device=1 --noformat --label=QX",
"text": null
},
{
"cmd": "raid",
"cls": "RHEL6_Raid.cls RHEL6_RaidData.cls",
"vs": [
11100
],
"line": "/x --device=1 --useexisting",
"text": "raid /x --device=1 --useexisting\\n"
},
{
"cmd": "raid",
"cls": "RHEL6_Raid.cls RHEL6_RaidData.cls",
"vs": [
11100
],
"line": "/x --device=1 --useexisting --fstype=ext4",
"text": "raid /x --device=1 --fstype=\\\"ext4\\\" --useexisting\\n"
},
{
"cmd": "raid",
"cls": "RHEL6_Raid.cls RHEL6_RaidData.cls",
"vs": [
11100
],
"line": "/x --device=1 --useexisting --label=QX",
"text": null
},
{
"cmd": "raid",
"cls": "RHEL6_Raid.cls RHEL6_RaidData.cls",
"vs": [
11100
],
"line": "/x --device=1 --level=RAID1 raid.1 raid.2 raid.3",
"text": "raid /x --device=1 --level=RAID1 raid.1 raid.2 raid.3\\n"
},
{
"cmd": "raid",
"cls": "RHEL6_Raid.cls RHEL6_RaidData.cls",
"vs": [
11100
],
"line": "/x --device=1 --level=RAID1 raid.1 raid.2 raid.3 --device=md7",
"text": "raid /x --device=7 --level=RAID1 raid.1 raid.2 raid.3\\n"
},
{
"cmd": "raid",
"cls": "RHEL6_Raid.cls RHEL6_RaidData.cls",
"vs": [
11100
],
"line": "/x --device=1 --level=RAID1 raid.1 raid.2 raid.3 --device=data",
"text": null
},
{
"cmd": "raid",
"cls": "RHEL6_Raid.cls RHEL6_RaidData.cls",
"vs": [
11100
],
"line": "/x --device=1 --level=RAID1 raid.1 raid.2 raid.3 --level=0",
"text": "raid /x --device=1 --level=RAID0 raid.1 raid.2 raid.3\\n"
},
{
"cmd": "raid",
"cls": "RHEL6_Raid.cls RHEL6_RaidData.cls",
"vs": [
11100
],
"line": "/x --device=1 --level=RAID1 raid.1 raid.2 raid.3 --level=RAID5",
"text": "raid /x --device=1 --level=RAID5 raid.1 raid.2 raid.3\\n"
},
{
"cmd": "raid",
"cls": "RHEL6_Raid.cls RHEL6_RaidData.cls",
"vs": [
11100
],
"line": "/x --device=1 --level=RAID1 raid.1 raid.2 raid.3 --level=raid6",
"text": "raid /x --device=1 --level=RAID6 raid.1 raid.2 raid.3\\n"
},
{
"cmd": "raid",
"cls": "RHEL6_Raid.cls RHEL6_RaidData.cls",
"vs": [
11100
],
"line": "/x --device=1 --level=RAID1 raid.1 raid.2 raid.3 --level=10",
"text": "raid /x --device=1 --level=RAID10 raid.1 raid.2 raid.3\\n"
},
{
"cmd": "raid",
"cls": "RHEL6_Raid.cls RHEL6_RaidData.cls",
"vs": [
11100
],
"line": "/x --device=1 --level=RAID1 raid.1 raid.2 raid.3 --level=linear",
"text": null
},
{
"cmd": "raid",
"cls": "RHEL6_Raid.cls RHEL6_RaidData.cls",
"vs": [
11100
],
"line": "/x --device=1 --level=RAID1 raid.1 raid.2 raid.3 --spares=1",
"text": "raid /x --device=1 --level=RAID1 --spares=1 raid.1 raid.2 raid.3\\n"
},
{
"cmd": "raid",
"cls": "RHEL6_Raid.cls RHEL6_RaidData.cls",
"vs": [
11100
],
"line": "/x --device=1 --level=RAID1 raid.1 raid.2 raid.3 --spares=2",
"text": "raid /x --device=1 --level=RAID1 --spares=2 raid.1 raid.2 raid.3\\n"
},
{
"cmd": "unsupported_hardware",
"cls": "RHEL6_UnsupportedHardware.cls",
"vs": [
11100,
19100
],
"line": "",
"text": "unsupported_hardware\\n"
},
{
"cmd": "unsupported_hardware",
"cls": "RHEL6_UnsupportedHardware.cls",
"vs": [
11100,
19100
],
"line": "x",
"text": null
},
{
"cmd": "btrfs",
"cls": "RHEL7_BTRFS.cls RHEL7_BTRFSData.cls",
"vs": [
19100
],
"line": "/x a",
"text": "btrfs /x a\\n"
},
{
"cmd": "btrfs",
"cls": "RHEL7_BTRFS.cls RHEL7_BTRFSData.cls",
"vs": [
19100
],
"line": "/x a --noformat",
"text": "btrfs /x --noformat --useexisting a\\n"
},
{
"cmd": "btrfs",
"cls": "RHEL7_BTRFS.cls RHEL7_BTRFSData.cls",
"vs": [
19100
],
"line": "/x a --useexisting",
"text": "btrfs /x --noformat --useexisting a\\n"
},
{
"cmd": "btrfs",
"cls": "RHEL7_BTRFS.cls RHEL7_BTRFSData.cls",
"vs": [
19100
],
"line": "/x a --label=QX",
"text": "btrfs /x --label=QX a\\n"
},
{
"cmd": "btrfs",
"cls": "RHEL7_BTRFS.cls RHEL7_BTRFSData.cls",
"vs": [
19100
],
"line": "/x a --data=raid0",
"text": "btrfs /x --data=raid0 a\\n"
},
{
"cmd": "btrfs",
"cls": "RHEL7_BTRFS.cls RHEL7_BTRFSData.cls",
"vs": [
19100
],
"line": "/x a --data=0",
"text": "btrfs /x --data=raid0 a\\n"
},
{
"cmd": "btrfs",
"cls": "RHEL7_BTRFS.cls RHEL7_BTRFSData.cls",
"vs": [
19100
],
"line": "/x a --data=raid1",
"text": "btrfs /x --data=raid1 a\\n"
},
{
"cmd": "btrfs",
"cls": "RHEL7_BTRFS.cls RHEL7_BTRFSData.cls",
"vs": [
19100
],
"line": "/x a --data=1",
"text": "btrfs /x --data=raid1 a\\n"
},
{
"cmd": "btrfs",
"cls": "RHEL7_BTRFS.cls RHEL7_BTRFSData.cls",
"vs": [
19100
],
"line": "/x a --data=raid10",
"text": "btrfs /x --data=raid10 a\\n"
},
{
"cmd": "btrfs",
"cls": "RHEL7_BTRFS.cls RHEL7_BTRFSData.cls",
"vs": [
19100
],
"line": "/x a --data=10",
"text": "btrfs /x --data=raid10 a\\n"
},
{
"cmd": "btrfs",
"cls": "RHEL7_BTRFS.cls RHEL7_BTRFSData.cls",
"vs": [
19100
],
"line": "/x a --data=single",
"text": "btrfs /x --data=single a\\n"
},
{
"cmd": "btrfs",
"cls": "RHEL7_BTRFS.cls RHEL7_BTRFSData.cls",
"vs": [
19100
],
"line": "/x a --metadata=raid0",
"text": "btrfs /x --metadata=raid0 a\\n"
},
{
"cmd": "btrfs",
"cls": "RHEL7_BTRFS.cls RHEL7_BTRFSData.cls",
"vs": [
19100
],
"line": "/x a --metadata=0",
"text": "btrfs /x --metadata=raid0 a\\n"
},
{
"cmd": "btrfs",
"cls": "RHEL7_BTRFS.cls RHEL7_BTRFSData.cls",
"vs": [
19100
],
"line": "/x a --metadata=raid1",
"text": "btrfs /x --metadata=raid1 a\\n"
},
{
"cmd": "btrfs",
"cls": "RHEL7_BTRFS.cls RHEL7_BTRFSData.cls",
"vs": [
19100
],
"line": "/x a --metadata=1",
"text": "btrfs /x --metadata=raid1 a\\n"
},
{
"cmd": "btrfs",
"cls": "RHEL7_BTRFS.cls RHEL7_BTRFSData.cls",
"vs": [
19100
],
"line": "/x a --metadata=raid10",
"text": "btrfs /x --metadata=raid10 a\\n"
},
{
"cmd": "btrfs",
"cls": "RHEL7_BTRFS.cls RHEL7_BTRFSData.cls",
"vs": [
19100
],
"line": "/x a --metadata=10",
"text": "btrfs /x --metadata=raid10 a\\n"
},
{
"cmd": "btrfs",
"cls": "RHEL7_BTRFS.cls RHEL7_BTRFSData.cls",
"vs": [
19100
],
"line": "/x a --metadata=single",
"text": "btrfs /x --metadata=single a\\n"
},
{
"cmd": "btrfs",
"cls": "RHEL7_BTRFS.cls RHEL7_BTRFSData.cls",
"vs": [
19100
],
"line": "/x a --subvol",
"text": null
},
{
"cmd": "btrfs",
"cls": "RHEL7_BTRFS.cls RHEL7_BTRFSData.cls",
"vs": [
19100
],
"line": "/x a --parent=QX",
"text": "btrfs /x a\\n"
},
{
"cmd": "btrfs",
"cls": "RHEL7_BTRFS.cls RHEL7_BTRFSData.cls",
"vs": [
19100
],
"line": "/x a --name=QX",
"text": "btrfs /x a\\n"
},
{
"cmd": "btrfs",
"cls": "RHEL7_BTRFS.cls RHEL7_BTRFSData.cls",
"vs": [
19100
],
"line": "/x a --mkfsoptions=QX",
"text": "btrfs /x --mkfsoptions=\\\"QX\\\" a\\n"
},
{
"cmd": "btrfs",
"cls": "RHEL7_BTRFS.cls RHEL7_BTRFSData.cls",
"vs": [
19100
],
"line": "/x --label=l --data=raid1 --metadata=raid0 a b",
"text": "btrfs /x --label=l --data=raid1 --metadata=raid0 a b\\n"
},
{
"cmd": "btrfs",
"cls": "RHEL7_BTRFS.cls RHEL7_BTRFSData.cls",
"vs": [
19100
],
"line": "none a",
"text": "btrfs none a\\n"
},
{
"cmd": "btrfs",
"cls": "RHEL7_BTRFS.cls RHEL7_BTRFSData.cls",
"vs": [
19100
],
"line": "/x --subvol --name=s LABEL=l",
"text": "btrfs /x --subvol --name=s LABEL=l\\n"
},
{
"cmd": "btrfs",
"cls": "RHEL7_BTRFS.cls RHEL7_BTRFSData.cls",
"vs": [
19100
],
"line": "/x --subvol --name=s LABEL=l --parent=QX",
"text": "btrfs /x --subvol --name=s LABEL=l\\n"
},
{
"cmd": "btrfs",
"cls": "RHEL7_BTRFS.cls RHEL7_BTRFSData.cls",
"vs": [
19100
],
"line": "/x --noformat LABEL=l",
"text": "btrfs /x --noformat --useexisting LABEL=l\\n"
},
{
"cmd": "btrfs",
"cls": "RHEL7_BTRFS.cls RHEL7_BTRFSData.cls",
"vs": [
19100
],
"line": "/x --noformat LABEL=l --useexisting",
"text": "btrfs /x --noformat --useexisting LABEL=l\\n"
},
{
"cmd": "hmc",
"cls": "RHEL7_Hmc.cls",
"vs": [
19100
],
"line": "",
"text": "# Use installation media via SE/HMC\\nhmc\\n"
},
{
"cmd": "hmc",
"cls": "RHEL7_Hmc.cls",
"vs": [
19100
],
"line": "x",
"text": null
},
{
"cmd": "hmc",
"cls": "RHEL7_Hmc.cls",
"vs": [
19100
],
"line": "--x",
"text": null
},
{
"cmd": "raid",
"cls": "RHEL7_Raid.cls RHEL7_RaidData.cls",
"vs": [
19100
],
"line": "/x --device=1 --level=RAID1 raid.1 raid.2",
"text": "raid /x --device=1 --level=RAID1 raid.1 raid.2\\n"
},
{
"cmd": "raid",
"cls": "RHEL7_Raid.cls RHEL7_RaidData.cls",
"vs": [
19100
],
"line": "/x --device=1 --level=RAID1 raid.1 raid.2 --device=QX",
"text": "raid /x --device=QX --level=RAID1 raid.1 raid.2\\n"
},
{
"cmd": "raid",
"cls": "RHEL7_Raid.cls RHEL7_RaidData.cls",
"vs": [
19100
],
"line": "/x --device=1 --level=RAID1 raid.1 raid.2 --fstype=QX",
"text": "raid /x --device=1 --fstype=\\\"QX\\\" --level=RAID1 raid.1 raid.2\\n"
},
{
"cmd": "raid",
"cls": "RHEL7_Raid.cls RHEL7_RaidData.cls",
"vs": [
19100
],
"line": "/x --device=1 --level=RAID1 raid.1 raid.2 --level=RAID0",
"text": "raid /x --device=1 --level=RAID0 raid.1 raid.2\\n"
},
{
"cmd": "raid",
"cls": "RHEL7_Raid.cls RHEL7_RaidData.cls",
"vs": [
19100
],
"line": "/x --device=1 --level=RAID1 raid.1 raid.2 --level=0",
"text": "raid /x --device=1 --level=RAID0 raid.1 raid.2\\n"
},
{
"cmd": "raid",
"cls": "RHEL7_Raid.cls RHEL7_RaidData.cls",
"vs": [
19100
],
"line": "/x --device=1 --level=RAID1 raid.1 raid.2 --level=RAID1",
"text": "raid /x --device=1 --level=RAID1 raid.1 raid.2\\n"
},
{
"cmd": "raid",
"cls": "RHEL7_Raid.cls RHEL7_RaidData.cls",
"vs": [
19100
],
"line": "/x --device=1 --level=RAID1 raid.1 raid.2 --level=1",
"text": "raid /x --device=1 --level=RAID1 raid.1 raid.2\\n"
},
{
"cmd": "raid",
"cls": "RHEL7_Raid.cls RHEL7_RaidData.cls",
"vs": [
19100
],
"line": "/x --device=1 --level=RAID1 raid.1 raid.2 --level=RAID5",
"text": "raid /x --device=1 --level=RAID5 raid.1 raid.2\\n"
},
{
"cmd": "raid",
"cls": "RHEL7_Raid.cls RHEL7_RaidData.cls",
"vs": [
19100
],
"line": "/x --device=1 --level=RAID1 raid.1 raid.2 --level=5",
"text": "raid /x --device=1 --level=RAID5 raid.1 raid.2\\n"
},
{
"cmd": "raid",
"cls": "RHEL7_Raid.cls RHEL7_RaidData.cls",
"vs": [
19100
],
"line": "/x --device=1 --level=RAID1 raid.1 raid.2 --level=RAID6",
"text": "raid /x --device=1 --level=RAID6 raid.1 raid.2\\n"
},
{
"cmd": "raid",
"cls": "RHEL7_Raid.cls RHEL7_RaidData.cls",
"vs": [
19100
],
"line": "/x --device=1 --level=RAID1 raid.1 raid.2 --level=6",
"text": "raid /x --device=1 --level=RAID6 raid.1 raid.2\\n"
},
{
"cmd": "raid",
"cls": "RHEL7_Raid.cls RHEL7_RaidData.cls",
"vs": [
19100
],
"line": "/x --device=1 --level=RAID1 raid.1 raid.2 --level=RAID10",
"text": "raid /x --device=1 --level=RAID10 raid.1 raid.2\\n"
},
{
"cmd": "raid",
"cls": "RHEL7_Raid.cls RHEL7_RaidData.cls",
"vs": [
19100
],
"line": "/x --device=1 --level=RAID1 raid.1 raid.2 --level=10",
"text": "raid /x --device=1 --level=RAID10 raid.1 raid.2\\n"
},
{
"cmd": "raid",
"cls": "RHEL7_Raid.cls RHEL7_RaidData.cls",
"vs": [
19100
],
"line": "/x --device=1 --level=RAID1 raid.1 raid.2 --noformat",
"text": null
},
{
"cmd": "raid",
"cls": "RHEL7_Raid.cls RHEL7_RaidData.cls",
"vs": [
19100
],
"line": "/x --device=1 --level=RAID1 raid.1 raid.2 --spares=42",
"text": "raid /x --device=1 --level=RAID1 --spares=42 raid.1 raid.2\\n"
},
{
"cmd": "raid",
"cls": "RHEL7_Raid.cls RHEL7_RaidData.cls",
"vs": [
19100
],
"line": "/x --device=1 --level=RAID1 raid.1 raid.2 --useexisting",
"text": null
},
{
"cmd": "raid",
"cls": "RHEL7_Raid.cls RHEL7_RaidData.cls",
"vs": [
19100
],
"line": "/x --device=1 --level=RAID1 raid.1 raid.2 --fsoptions=QX",
"text": "raid /x --device=1 --level=RAID1 --fsoptions=\\\"QX\\\" raid.1 raid.2\\n"
},
{
"cmd": "raid",
"cls": "RHEL7_Raid.cls RHEL7_RaidData.cls",
"vs": [
19100
],
"line": "/x --device=1 --level=RAID1 raid.1 raid.2 --bytes-per-inode=QX",
"text": null
},
{
"cmd": "raid",
"cls": "RHEL7_Raid.cls RHEL7_RaidData.cls",
"vs": [
19100
],
"line": "/x --device=1 --level=RAID1 raid.1 raid.2 --fsprofile=QX",
"text": "raid /x --device=1 --level=RAID1 --fsprofile=\\\"QX\\\" raid.1 raid.2\\n"
},
{
"cmd": "raid",
"cls": "RHEL7_Raid.cls RHEL7_RaidData.cls",
"vs": [
19100
],
"line": "/x --device=1 --level=RAID1 raid.1 raid.2 --encrypted",
"text": "raid /x --device=1 --level=RAID1 --encrypted raid.1 raid.2\\n"
},
{
"cmd": "raid",
"cls": "RHEL7_Raid.cls RHEL7_RaidData.cls",
"vs": [
19100
],
"line": "/x --device=1 --level=RAID1 raid.1 raid.2 --passphrase=QX",
"text": "raid /x --device=1 --level=RAID1 raid.1 raid.2\\n"
},
{
"cmd": "raid",
"cls": "RHEL7_Raid.cls RHEL7_RaidData.cls",
"vs": [
19100
],
"line": "/x --device=1 --level=RAID1 raid.1 raid.2 --escrowcert=QX",
"text": "raid /x --device=1 --level=RAID1 raid.1 raid.2\\n"
},
{
"cmd": "raid",
"cls": "RHEL7_Raid.cls RHEL7_RaidData.cls",
"vs": [
19100
],
"line": "/x --device=1 --level=RAID1 raid.1 raid.2 --backuppassphrase",
"text": "raid /x --device=1 --level=RAID1 raid.1 raid.2\\n"
},
{
"cmd": "raid",
"cls": "RHEL7_Raid.cls RHEL7_RaidData.cls",
"vs": [
19100
],
"line": "/x --device=1 --level=RAID1 raid.1 raid.2 --level=RAID4",
"text": "raid /x --device=1 --level=RAID4 raid.1 raid.2\\n"
},
{
"cmd": "raid",
"cls": "RHEL7_Raid.cls RHEL7_RaidData.cls",
"vs": [
19100
],
"line": "/x --device=1 --level=RAID1 raid.1 raid.2 --level=4",
"text": "raid /x --device=1 --level=RAID4 raid.1 raid.2\\n"
},
{
"cmd": "raid",
"cls": "RHEL7_Raid.cls RHEL7_RaidData.cls",
"vs": [
19100
],
"line": "/x --device=1 --level=RAID1 raid.1 raid.2 --label=QX",
"text": "raid /x --device=1 --level=RAID1 --label=QX raid.1 raid.2\\n"
},
{
"cmd": "raid",
"cls": "RHEL7_Raid.cls RHEL7_RaidData.cls",
"vs": [
19100
],
"line": "/x --device=1 --level=RAID1 raid.1 raid.2 --cipher=QX",
"text": "raid /x --device=1 --level=RAID1 raid.1 raid.2\\n"
},
{
"cmd": "raid",
"cls": "RHEL7_Raid.cls RHEL7_RaidData.cls",
"vs": [
19100
],
"line": "/x --device=1 --level=RAID1 raid.1 raid.2 --mkfsoptions=QX",
"text": "raid /x --device=1 --level=RAID1 --mkfsoptions=\\\"QX\\\" raid.1 raid.2\\n"
},
{
"cmd": "raid",
"cls": "RHEL7_Raid.cls RHEL7_RaidData.cls",
"vs": [
19100
],
"line": "/x --device=1 --level=RAID1 raid.1 raid.2 --chunksize=42",
"text": "raid /x --device=1 --level=RAID1 --chunksize=42 raid.1 raid.2\\n"
},
{
"cmd": "raid",
"cls": "RHEL7_Raid.cls RHEL7_RaidData.cls",
"vs": [
19100
],
"line": "/x --device=1 --level=RAID1 raid.1 raid.2 --luks-version=QX",
"text": null
},
{
"cmd": "raid",
"cls": "RHEL7_Raid.cls RHEL7_RaidData.cls",
"vs": [
19100
],
"line": "/x --device=1 --level=RAID1 raid.1 raid.2 --pbkdf=QX",
"text": null
},
{
"cmd": "raid",
"cls": "RHEL7_Raid.cls RHEL7_RaidData.cls",
"vs": [
19100
],
"line": "/x --device=1 --level=RAID1 raid.1 raid.2 --pbkdf-memory=42",
"text": null
},
{
"cmd": "raid",
"cls": "RHEL7_Raid.cls RHEL7_RaidData.cls",
"vs": [
19100
],
"line": "/x --device=1 --level=RAID1 raid.1 raid.2 --pbkdf-time=42",
"text": null
},
{
"cmd": "raid",
"cls": "RHEL7_Raid.cls RHEL7_RaidData.cls",
"vs": [
19100
],
"line": "/x --device=1 --level=RAID1 raid.1 raid.2 --pbkdf-iterations=42",
"text": null
},
{
"cmd": "raid",
"cls": "RHEL7_Raid.cls RHEL7_RaidData.cls",
"vs": [
19100
],
"line": "/x --device=1 --level=RAID1 raid.1 raid.2 --bytes-per-inode=42",
"text": null
},
{
"cmd": "raid",
"cls": "RHEL7_Raid.cls RHEL7_RaidData.cls",
"vs": [
19100
],
"line": "/x --device=1 --level=RAID1 raid.1 raid.2 --encrypted --passphrase=QX",
"text": "raid /x --device=1 --level=RAID1 --encrypted --passphrase=\\\"QX\\\" raid.1 raid.2\\n"
},
{
"cmd": "raid",
"cls": "RHEL7_Raid.cls RHEL7_RaidData.cls",
"vs": [
19100
],
"line": "/x --device=1 --level=RAID1 raid.1 raid.2 --encrypted --escrowcert=QX",
"text": "raid /x --device=1 --level=RAID1 --encrypted --escrowcert=\\\"QX\\\" raid.1 raid.2\\n"
},
{
"cmd": "raid",
"cls": "RHEL7_Raid.cls RHEL7_RaidData.cls",
"vs": [
19100
],
"line": "/x --device=1 --level=RAID1 raid.1 raid.2 --encrypted --escrowcert=c --backuppassphrase",
"text": "raid /x --device=1 --level=RAID1 --encrypted --escrowcert=\\\"c\\\" --backuppassphrase raid.1 raid.2\\n"
},
{
"cmd": "raid",
"cls": "RHEL7_Raid.cls RHEL7_RaidData.cls",
"vs": [
19100
],
"line": "/x --device=1 --level=RAID1 raid.1 raid.2 --encrypted --cipher=QX",
"text": "raid /x --device=1 --level=RAID1 --encrypted --cipher=\\\"QX\\\" raid.1 raid.2\\n"
},
{
"cmd": "raid",
"cls": "RHEL7_Raid.cls RHEL7_RaidData.cls",
"vs": [
19100
],
"line": "/x --device=1 --level=RAID1 raid.1 raid.2 --encrypted --luks-version=QX",
"text": null
},
{
"cmd": "raid",
"cls": "RHEL7_Raid.cls RHEL7_RaidData.cls",
"vs": [
19100
],
"line": "/x --device=1 --level=RAID1 raid.1 raid.2 --encrypted --pbkdf=QX",
"text": null
},
{
"cmd": "raid",
"cls": "RHEL7_Raid.cls RHEL7_RaidData.cls",
"vs": [
19100
],
"line": "/x --device=1 --level=RAID1 raid.1 raid.2 --encrypted --pbkdf-memory=42",
"text": null
},
{
"cmd": "raid",
"cls": "RHEL7_Raid.cls RHEL7_RaidData.cls",
"vs": [
19100
],
"line": "/x --device=1 --level=RAID1 raid.1 raid.2 --encrypted --pbkdf-time=42",
"text": null
},
{
"cmd": "raid",
"cls": "RHEL7_Raid.cls RHEL7_RaidData.cls",
"vs": [
19100
],
"line": "/x --device=1 --level=RAID1 raid.1 raid.2 --encrypted --pbkdf-iterations=42",
"text": null
},
{
"cmd": "raid",
"cls": "RHEL7_Raid.cls RHEL7_RaidData.cls",
"vs": [
19100
],
"line": "/x --device=1 --level=RAID1 raid.1 raid.2 raid.3 --spares=1 --fstype=ext4 --fsoptions=o --fsprofile=f --encrypted",
"text": "raid /x --device=1 --fstype=\\\"ext4\\\" --level=RAID1 --spares=1 --fsoptions=\\\"o\\\" --fsprofile=\\\"f\\\" --encrypted raid.1 raid.2 raid.3\\n"
},
{
"cmd": "raid",
"cls": "RHEL7_Raid.cls RHEL7_RaidData.cls",
"vs": [
19100
],
"line": "/x --device=1 --noformat",
"text": "raid /x --device=1 --noformat --useexisting\\n"
},
{
"cmd": "raid",
"cls": "RHEL7_Raid.cls RHEL7_RaidData.cls",
"vs": [
19100
],
"line": "/x --device=1 --noformat --fstype=ext4",
"text": "raid /x --device=1 --fstype=\\\"ext4\\\" --noformat --useexisting\\n"
},
{
"cmd": "raid",
"cls": "RHEL7_Raid.cls RHEL7_RaidData.cls",
"vs": [
19100
],
"line": "/x --device=1 --noformat --label=QX",
"text": "raid /x --device=1 --noformat --useexisting --label=QX\\n"
},
{
"cmd": "raid",
"cls": "RHEL7_Raid.cls RHEL7_RaidData.cls",
"vs": [
19100
],
"line": "/x --device=1 --useexisting",
"text": "raid /x --device=1 --useexisting\\n"
},
{
"cmd": "raid",
"cls": "RHEL7_Raid.cls RHEL7_RaidData.cls",
"vs": [
19100
],
"line": "/x --device=1 --useexisting --fstype=ext4",
"text": "raid /x --device=1 --fstype=\\\"ext4\\\" --useexisting\\n"
},
{
"cmd": "raid",
"cls": "RHEL7_Raid.cls RHEL7_RaidData.cls",
"vs": [
19100
],
"line": "/x --device=1 --useexisting --label=QX",
"text": "raid /x --device=1 --useexisting --label=QX\\n"
},
{
"cmd": "raid",
"cls": "RHEL7_Raid.cls RHEL7_RaidData.cls",
"vs": [
19100
],
"line": "/x --device=1 --level=RAID1 raid.1 raid.2 raid.3",
"text": "raid /x --device=1 --level=RAID1 raid.1 raid.2 raid.3\\n"
},
{
"cmd": "raid",
"cls": "RHEL7_Raid.cls RHEL7_RaidData.cls",
"vs": [
19100
],
"line": "/x --device=1 --level=RAID1 raid.1 raid.2 raid.3 --device=md7",
"text": "raid /x --device=7 --level=RAID1 raid.1 raid.2 raid.3\\n"
},
{
"cmd": "raid",
"cls": "RHEL7_Raid.cls RHEL7_RaidData.cls",
"vs": [
19100
],
"line": "/x --device=1 --level=RAID1 raid.1 raid.2 raid.3 --device=data",
"text": "raid /x --device=data --level=RAID1 raid.1 raid.2 raid.3\\n"
},
{
"cmd": "raid",
"cls": "RHEL7_Raid.cls RHEL7_RaidData.cls",
"vs": [
19100
],
"line": "/x --device=1 --level=RAID1 raid.1 raid.2 raid.3 --level=0",
"text": "raid /x --device=1 --level=RAID0 raid.1 raid.2 raid.3\\n"
},
{
"cmd": "raid",
"cls": "RHEL7_Raid.cls RHEL7_RaidData.cls",
"vs": [
19100
],
"line": "/x --device=1 --level=RAID1 raid.1 raid.2 raid.3 --level=RAID5",
"text": "raid /x --device=1 --level=RAID5 raid.1 raid.2 raid.3\\n"
},
{
"cmd": "raid",
"cls": "RHEL7_Raid.cls RHEL7_RaidData.cls",
"vs": [
19100
],
"line": "/x --device=1 --level=RAID1 raid.1 raid.2 raid.3 --level=raid6",
"text": "raid /x --device=1 --level=RAID6 raid.1 raid.2 raid.3\\n"
},
{
"cmd": "raid",
"cls": "RHEL7_Raid.cls RHEL7_RaidData.cls",
"vs": [
19100
],
"line": "/x --device=1 --level=RAID1 raid.1 raid.2 raid.3 --level=10",
"text": "raid /x --device=1 --level=RAID10 raid.1 raid.2 raid.3\\n"
},
{
"cmd": "raid",
"cls": "RHEL7_Raid.cls RHEL7_RaidData.cls",
"vs": [
19100
],
"line": "/x --device=1 --level=RAID1 raid.1 raid.2 raid.3 --level=linear",
"text": null
},
{
"cmd": "raid",
"cls": "RHEL7_Raid.cls RHEL7_RaidData.cls",
"vs": [
19100
],
"line": "/x --device=1 --level=RAID1 raid.1 raid.2 raid.3 --spares=1",
"text": "raid /x --device=1 --level=RAID1 --spares=1 raid.1 raid.2 raid.3\\n"
},
{
"cmd": "raid",
"cls": "RHEL7_Raid.cls RHEL7_RaidData.cls",
"vs": [
19100
],
"line": "/x --device=1 --level=RAID1 raid.1 raid.2 raid.3 --spares=2",
"text": "raid /x --device=1 --level=RAID1 --spares=2 raid.1 raid.2 raid.3\\n"
},
{
"cmd": "volgroup",
"cls": "RHEL7_VolGroup.cls RHEL7_VolGroupData.cls",
"vs": [
19100
],
"line": "g pv.1",
"text": "volgroup g pv.1\\n"
},
{
"cmd": "volgroup",
"cls": "RHEL7_VolGroup.cls RHEL7_VolGroupData.cls",
"vs": [
19100
],
"line": "g pv.1 --noformat",
"text": null
},
{
"cmd": "volgroup",
"cls": "RHEL7_VolGroup.cls RHEL7_VolGroupData.cls",
"vs": [
19100
],
"line": "g pv.1 --pesize=42",
"text": "volgroup g --pesize=42 pv.1\\n"
},
{
"cmd": "volgroup",
"cls": "RHEL7_VolGroup.cls RHEL7_VolGroupData.cls",
"vs": [
19100
],
"line": "g pv.1 --useexisting",
"text": null
},
{
"cmd": "volgroup",
"cls": "RHEL7_VolGroup.cls RHEL7_VolGroupData.cls",
"vs": [
19100
],
"line": "g pv.1 --reserved-space=42",
"text": "volgroup g --reserved-space=42 pv.1\\n"
},
{
"cmd": "volgroup",
"cls": "RHEL7_VolGroup.cls RHEL7_VolGroupData.cls",
"vs": [
19100
],
"line": "g pv.1 --reserved-percent=42",
"text": "volgroup g --reserved-percent=42 pv.1\\n"
},
{
"cmd": "volgroup",
"cls": "RHEL7_VolGroup.cls RHEL7_VolGroupData.cls",
"vs": [
19100
],
"line": "g pv.1 pv.2 --pesize=8",
"text": "volgroup g --pesize=8 pv.1 pv.2\\n"
},
{
"cmd": "volgroup",
"cls": "RHEL7_VolGroup.cls RHEL7_VolGroupData.cls",
"vs": [
19100
],
"line": "g --noformat",
"text": "volgroup g --noformat --useexisting\\n"
},
{
"cmd": "volgroup",
"cls": "RHEL7_VolGroup.cls RHEL7_VolGroupData.cls",
"vs": [
19100
],
"line": "g --useexisting",
"text": "volgroup g --useexisting\\n"
},
{
"cmd": "volgroup",
"cls": "RHEL7_VolGroup.cls RHEL7_VolGroupData.cls",
"vs": [
19100
],
"line": "g --useexisting --noformat",
"text": "volgroup g --noformat --useexisting\\n"
},
{
"cmd": "raid",
"cls": "RHEL8_Raid.cls RHEL8_RaidData.cls",
"vs": [
26100
],
"line": "/x --device=1 --level=RAID1 raid.1 raid.2",
"text": "raid /x --device=1 --level=RAID1 raid.1 raid.2\\n"
},
{
"cmd": "raid",
"cls": "RHEL8_Raid.cls RHEL8_RaidData.cls",
"vs": [
26100
],
"line": "/x --device=1 --level=RAID1 raid.1 raid.2 --device=QX",
"text": "raid /x --device=QX --level=RAID1 raid.1 raid.2\\n"
},
{
"cmd": "raid",
"cls": "RHEL8_Raid.cls RHEL8_RaidData.cls",
"vs": [
26100
],
"line": "/x --device=1 --level=RAID1 raid.1 raid.2 --fstype=QX",
"text": "raid /x --device=1 --fstype=\\\"QX\\\" --level=RAID1 raid.1 raid.2\\n"
},
{
"cmd": "raid",
"cls": "RHEL8_Raid.cls RHEL8_RaidData.cls",
"vs": [
26100
],
"line": "/x --device=1 --level=RAID1 raid.1 raid.2 --level=RAID0",
"text": "raid /x --device=1 --level=RAID0 raid.1 raid.2\\n"
},
{
"cmd": "raid",
"cls": "RHEL8_Raid.cls RHEL8_RaidData.cls",
"vs": [
26100
],
"line": "/x --device=1 --level=RAID1 raid.1 raid.2 --level=0",
"text": "raid /x --device=1 --level=RAID0 raid.1 raid.2\\n"
},
{
"cmd": "raid",
"cls": "RHEL8_Raid.cls RHEL8_RaidData.cls",
"vs": [
26100
],
"line": "/x --device=1 --level=RAID1 raid.1 raid.2 --level=RAID1",
"text": "raid /x --device=1 --level=RAID1 raid.1 raid.2\\n"
},
{
"cmd": "raid",
"cls": "RHEL8_Raid.cls RHEL8_RaidData.cls",
"vs": [
26100
],
"line": "/x --device=1 --level=RAID1 raid.1 raid.2 --level=1",
"text": "raid /x --device=1 --level=RAID1 raid.1 raid.2\\n"
},
{
"cmd": "raid",
"cls": "RHEL8_Raid.cls RHEL8_RaidData.cls",
"vs": [
26100
],
"line": "/x --device=1 --level=RAID1 raid.1 raid.2 --level=RAID5",
"text": "raid /x --device=1 --level=RAID5 raid.1 raid.2\\n"
},
{
"cmd": "raid",
"cls": "RHEL8_Raid.cls RHEL8_RaidData.cls",
"vs": [
26100
],
"line": "/x --device=1 --level=RAID1 raid.1 raid.2 --level=5",
"text": "raid /x --device=1 --level=RAID5 raid.1 raid.2\\n"
},
{
"cmd": "raid",
"cls": "RHEL8_Raid.cls RHEL8_RaidData.cls",
"vs": [
26100
],
"line": "/x --device=1 --level=RAID1 raid.1 raid.2 --level=RAID6",
"text": "raid /x --device=1 --level=RAID6 raid.1 raid.2\\n"
},
{
"cmd": "raid",
"cls": "RHEL8_Raid.cls RHEL8_RaidData.cls",
"vs": [
26100
],
"line": "/x --device=1 --level=RAID1 raid.1 raid.2 --level=6",
"text": "raid /x --device=1 --level=RAID6 raid.1 raid.2\\n"
},
{
"cmd": "raid",
"cls": "RHEL8_Raid.cls RHEL8_RaidData.cls",
"vs": [
26100
],
"line": "/x --device=1 --level=RAID1 raid.1 raid.2 --level=RAID10",
"text": "raid /x --device=1 --level=RAID10 raid.1 raid.2\\n"
},
{
"cmd": "raid",
"cls": "RHEL8_Raid.cls RHEL8_RaidData.cls",
"vs": [
26100
],
"line": "/x --device=1 --level=RAID1 raid.1 raid.2 --level=10",
"text": "raid /x --device=1 --level=RAID10 raid.1 raid.2\\n"
},
{
"cmd": "raid",
"cls": "RHEL8_Raid.cls RHEL8_RaidData.cls",
"vs": [
26100
],
"line": "/x --device=1 --level=RAID1 raid.1 raid.2 --noformat",
"text": null
},
{
"cmd": "raid",
"cls": "RHEL8_Raid.cls RHEL8_RaidData.cls",
"vs": [
26100
],
"line": "/x --device=1 --level=RAID1 raid.1 raid.2 --spares=42",
"text": "raid /x --device=1 --level=RAID1 --spares=42 raid.1 raid.2\\n"
},
{
"cmd": "raid",
"cls": "RHEL8_Raid.cls RHEL8_RaidData.cls",
"vs": [
26100
],
"line": "/x --device=1 --level=RAID1 raid.1 raid.2 --useexisting",
"text": null
},
{
"cmd": "raid",
"cls": "RHEL8_Raid.cls RHEL8_RaidData.cls",
"vs": [
26100
],
"line": "/x --device=1 --level=RAID1 raid.1 raid.2 --fsoptions=QX",
"text": "raid /x --device=1 --level=RAID1 --fsoptions=\\\"QX\\\" raid.1 raid.2\\n"
},
{
"cmd": "raid",
"cls": "RHEL8_Raid.cls RHEL8_RaidData.cls",
"vs": [
26100
],
"line": "/x --device=1 --level=RAID1 raid.1 raid.2 --bytes-per-inode=QX",
"text": null
},
{
"cmd": "raid",
"cls": "RHEL8_Raid.cls RHEL8_RaidData.cls",
"vs": [
26100
],
"line": "/x --device=1 --level=RAID1 raid.1 raid.2 --fsprofile=QX",
"text": "raid /x --device=1 --level=RAID1 --fsprofile=\\\"QX\\\" raid.1 raid.2\\n"
},
{
"cmd": "raid",
"cls": "RHEL8_Raid.cls RHEL8_RaidData.cls",
"vs": [
26100
],
"line": "/x --device=1 --level=RAID1 raid.1 raid.2 --encrypted",
"text": "raid /x --device=1 --level=RAID1 --encrypted raid.1 raid.2\\n"
},
{
"cmd": "raid",
"cls": "RHEL8_Raid.cls RHEL8_RaidData.cls",
"vs": [
26100
],
"line": "/x --device=1 --level=RAID1 raid.1 raid.2 --passphrase=QX",
"text": "raid /x --device=1 --level=RAID1 raid.1 raid.2\\n"
},
{
"cmd": "raid",
"cls": "RHEL8_Raid.cls RHEL8_RaidData.cls",
"vs": [
26100
],
"line": "/x --device=1 --level=RAID1 raid.1 raid.2 --escrowcert=QX",
"text": "raid /x --device=1 --level=RAID1 raid.1 raid.2\\n"
},
{
"cmd": "raid",
"cls": "RHEL8_Raid.cls RHEL8_RaidData.cls",
"vs": [
26100
],
"line": "/x --device=1 --level=RAID1 raid.1 raid.2 --backuppassphrase",
"text": "raid /x --device=1 --level=RAID1 raid.1 raid.2\\n"
},
{
"cmd": "raid",
"cls": "RHEL8_Raid.cls RHEL8_RaidData.cls",
"vs": [
26100
],
"line": "/x --device=1 --level=RAID1 raid.1 raid.2 --level=RAID4",
"text": "raid /x --device=1 --level=RAID4 raid.1 raid.2\\n"
},
{
"cmd": "raid",
"cls": "RHEL8_Raid.cls RHEL8_RaidData.cls",
"vs": [
26100
],
"line": "/x --device=1 --level=RAID1 raid.1 raid.2 --level=4",
"text": "raid /x --device=1 --level=RAID4 raid.1 raid.2\\n"
},
{
"cmd": "raid",
"cls": "RHEL8_Raid.cls RHEL8_RaidData.cls",
"vs": [
26100
],
"line": "/x --device=1 --level=RAID1 raid.1 raid.2 --label=QX",
"text": "raid /x --device=1 --level=RAID1 --label=QX raid.1 raid.2\\n"
},
{
"cmd": "raid",
"cls": "RHEL8_Raid.cls RHEL8_RaidData.cls",
"vs": [
26100
],
"line": "/x --device=1 --level=RAID1 raid.1 raid.2 --cipher=QX",
"text": "raid /x --device=1 --level=RAID1 raid.1 raid.2\\n"
},
{
"cmd": "raid",
"cls": "RHEL8_Raid.cls RHEL8_RaidData.cls",
"vs": [
26100
],
"line": "/x --device=1 --level=RAID1 raid.1 raid.2 --mkfsoptions=QX",
"text": "raid /x --device=1 --level=RAID1 --mkfsoptions=\\\"QX\\\" raid.1 raid.2\\n"
},
{
"cmd": "raid",
"cls": "RHEL8_Raid.cls RHEL8_RaidData.cls",
"vs": [
26100
],
"line": "/x --device=1 --level=RAID1 raid.1 raid.2 --chunksize=42",
"text": "raid /x --device=1 --level=RAID1 --chunksize=42 raid.1 raid.2\\n"
},
{
"cmd": "raid",
"cls": "RHEL8_Raid.cls RHEL8_RaidData.cls",
"vs": [
26100
],
"line": "/x --device=1 --level=RAID1 raid.1 raid.2 --luks-version=QX",
"text": "raid /x --device=1 --level=RAID1 raid.1 raid.2\\n"
},
{
"cmd": "raid",
"cls": "RHEL8_Raid.cls RHEL8_RaidData.cls",
"vs": [
26100
],
"line": "/x --device=1 --level=RAID1 raid.1 raid.2 --pbkdf=QX",
"text": "raid /x --device=1 --level=RAID1 raid.1 raid.2\\n"
},
{
"cmd": "raid",
"cls": "RHEL8_Raid.cls RHEL8_RaidData.cls",
"vs": [
26100
],
"line": "/x --device=1 --level=RAID1 raid.1 raid.2 --pbkdf-memory=42",
"text": "raid /x --device=1 --level=RAID1 raid.1 raid.2\\n"
},
{
"cmd": "raid",
"cls": "RHEL8_Raid.cls RHEL8_RaidData.cls",
"vs": [
26100
],
"line": "/x --device=1 --level=RAID1 raid.1 raid.2 --pbkdf-time=42",
"text": "raid /x --device=1 --level=RAID1 raid.1 raid.2\\n"
},
{
"cmd": "raid",
"cls": "RHEL8_Raid.cls RHEL8_RaidData.cls",
"vs": [
26100
],
"line": "/x --device=1 --level=RAID1 raid.1 raid.2 --pbkdf-iterations=42",
"text": "raid /x --device=1 --level=RAID1 raid.1 raid.2\\n"
},
{
"cmd": "raid",
"cls": "RHEL8_Raid.cls RHEL8_RaidData.cls",
"vs": [
26100
],
"line": "/x --device=1 --level=RAID1 raid.1 raid.2 --bytes-per-inode=42",
"text": null
},
{
"cmd": "raid",
"cls": "RHEL8_Raid.cls RHEL8_RaidData.cls",
"vs": [
26100
],
"line": "/x --device=1 --level=RAID1 raid.1 raid.2 --encrypted --passphrase=QX",
"text": "raid /x --device=1 --level=RAID1 --encrypted --passphrase=\\\"QX\\\" raid.1 raid.2\\n"
},
{
"cmd": "raid",
"cls": "RHEL8_Raid.cls RHEL8_RaidData.cls",
"vs": [
26100
],
"line": "/x --device=1 --level=RAID1 raid.1 raid.2 --encrypted --escrowcert=QX",
"text": "raid /x --device=1 --level=RAID1 --encrypted --escrowcert=\\\"QX\\\" raid.1 raid.2\\n"
},
{
"cmd": "raid",
"cls": "RHEL8_Raid.cls RHEL8_RaidData.cls",
"vs": [
26100
],
"line": "/x --device=1 --level=RAID1 raid.1 raid.2 --encrypted --escrowcert=c --backuppassphrase",
"text": "raid /x --device=1 --level=RAID1 --encrypted --escrowcert=\\\"c\\\" --backuppassphrase raid.1 raid.2\\n"
},
{
"cmd": "raid",
"cls": "RHEL8_Raid.cls RHEL8_RaidData.cls",
"vs": [
26100
],
"line": "/x --device=1 --level=RAID1 raid.1 raid.2 --encrypted --cipher=QX",
"text": "raid /x --device=1 --level=RAID1 --encrypted --cipher=\\\"QX\\\" raid.1 raid.2\\n"
},
{
"cmd": "raid",
"cls": "RHEL8_Raid.cls RHEL8_RaidData.cls",
"vs": [
26100
],
"line": "/x --device=1 --level=RAID1 raid.1 raid.2 --encrypted --luks-version=QX",
"text": "raid /x --device=1 --level=RAID1 --encrypted --luks-version=QX raid.1 raid.2\\n"
},
{
"cmd": "raid",
"cls": "RHEL8_Raid.cls RHEL8_RaidData.cls",
"vs": [
26100
],
"line": "/x --device=1 --level=RAID1 raid.1 raid.2 --encrypted --pbkdf=QX",
"text": "raid /x --device=1 --level=RAID1 --encrypted --pbkdf=QX raid.1 raid.2\\n"
},
{
"cmd": "raid",
"cls": "RHEL8_Raid.cls RHEL8_RaidData.cls",
"vs": [
26100
],
"line": "/x --device=1 --level=RAID1 raid.1 raid.2 --encrypted --pbkdf-memory=42",
"text": "raid /x --device=1 --level=RAID1 --encrypted --pbkdf-memory=42 raid.1 raid.2\\n"
},
{
"cmd": "raid",
"cls": "RHEL8_Raid.cls RHEL8_RaidData.cls",
"vs": [
26100
],
"line": "/x --device=1 --level=RAID1 raid.1 raid.2 --encrypted --pbkdf-time=42",
"text": "raid /x --device=1 --level=RAID1 --encrypted --pbkdf-time=42 raid.1 raid.2\\n"
},
{
"cmd": "raid",
"cls": "RHEL8_Raid.cls RHEL8_RaidData.cls",
"vs": [
26100
],
"line": "/x --device=1 --level=RAID1 raid.1 raid.2 --encrypted --pbkdf-iterations=42",
"text": "raid /x --device=1 --level=RAID1 --encrypted --pbkdf-iterations=42 raid.1 raid.2\\n"
},
{
"cmd": "raid",
"cls": "RHEL8_Raid.cls RHEL8_RaidData.cls",
"vs": [
26100
],
"line": "/x --device=1 --level=RAID1 raid.1 raid.2 raid.3 --spares=1 --fstype=ext4 --fsoptions=o --fsprofile=f --encrypted",
"text": "raid /x --device=1 --fstype=\\\"ext4\\\" --level=RAID1 --spares=1 --fsoptions=\\\"o\\\" --fsprofile=\\\"f\\\" --encrypted raid.1 raid.2 raid.3\\n"
},
{
"cmd": "raid",
"cls": "RHEL8_Raid.cls RHEL8_RaidData.cls",
"vs": [
26100
],
"line": "/x --device=1 --noformat",
"text": "raid /x --device=1 --noformat --useexisting\\n"
},
{
"cmd": "raid",
"cls": "RHEL8_Raid.cls RHEL8_RaidData.cls",
"vs": [
26100
],
"line": "/x --device=1 --noformat --fstype=ext4",
"text": "raid /x --device=1 --fstype=\\\"ext4\\\" --noformat --useexisting\\n"
},
{
"cmd": "raid",
"cls": "RHEL8_Raid.cls RHEL8_RaidData.cls",
"vs": [
26100
],
"line": "/x --device=1 --noformat --label=QX",
"text": "raid /x --device=1 --noformat --useexisting --label=QX\\n"
},
{
"cmd": "raid",
"cls": "RHEL8_Raid.cls RHEL8_RaidData.cls",
"vs": [
26100
],
"line": "/x --device=1 --useexisting",
"text": "raid /x --device=1 --useexisting\\n"
},
{
"cmd": "raid",
"cls": "RHEL8_Raid.cls RHEL8_RaidData.cls",
"vs": [
26100
],
"line": "/x --device=1 --useexisting --fstype=ext4",
"text": "raid /x --device=1 --fstype=\\\"ext4\\\" --useexisting\\n"
},
{
"cmd": "raid",
"cls": "RHEL8_Raid.cls RHEL8_RaidData.cls",
"vs": [
26100
],
"line": "/x --device=1 --useexisting --label=QX",
"text": "raid /x --device=1 --useexisting --label=QX\\n"
},
{
"cmd": "raid",
"cls": "RHEL8_Raid.cls RHEL8_RaidData.cls",
"vs": [
26100
],
"line": "/x --device=1 --level=RAID1 raid.1 raid.2 raid.3",
"text": "raid /x --device=1 --level=RAID1 raid.1 raid.2 raid.3\\n"
},
{
"cmd": "raid",
"cls": "RHEL8_Raid.cls RHEL8_RaidData.cls",
"vs": [
26100
],
"line": "/x --device=1 --level=RAID1 raid.1 raid.2 raid.3 --device=md7",
"text": "raid /x --device=7 --level=RAID1 raid.1 raid.2 raid.3\\n"
},
{
"cmd": "raid",
"cls": "RHEL8_Raid.cls RHEL8_RaidData.cls",
"vs": [
26100
],
"line": "/x --device=1 --level=RAID1 raid.1 raid.2 raid.3 --device=data",
"text": "raid /x --device=data --level=RAID1 raid.1 raid.2 raid.3\\n"
},
{
"cmd": "raid",
"cls": "RHEL8_Raid.cls RHEL8_RaidData.cls",
"vs": [
26100
],
"line": "/x --device=1 --level=RAID1 raid.1 raid.2 raid.3 --level=0",
"text": "raid /x --device=1 --level=RAID0 raid.1 raid.2 raid.3\\n"
},
{
"cmd": "raid",
"cls": "RHEL8_Raid.cls RHEL8_RaidData.cls",
"vs": [
26100
],
"line": "/x --device=1 --level=RAID1 raid.1 raid.2 raid.3 --level=RAID5",
"text": "raid /x --device=1 --level=RAID5 raid.1 raid.2 raid.3\\n"
},
{
"cmd": "raid",
"cls": "RHEL8_Raid.cls RHEL8_RaidData.cls",
"vs": [
26100
],
"line": "/x --device=1 --level=RAID1 raid.1 raid.2 raid.3 --level=raid6",
"text": "raid /x --device=1 --level=RAID6 raid.1 raid.2 raid.3\\n"
},
{
"cmd": "raid",
"cls": "RHEL8_Raid.cls RHEL8_RaidData.cls",
"vs": [
26100
],
"line": "/x --device=1 --level=RAID1 raid.1 raid.2 raid.3 --level=10",
"text": "raid /x --device=1 --level=RAID10 raid.1 raid.2 raid.3\\n"
},
{
"cmd": "raid",
"cls": "RHEL8_Raid.cls RHEL8_RaidData.cls",
"vs": [
26100
],
"line": "/x --device=1 --level=RAID1 raid.1 raid.2 raid.3 --level=linear",
"text": null
},
{
"cmd": "raid",
"cls": "RHEL8_Raid.cls RHEL8_RaidData.cls",
"vs": [
26100
],
"line": "/x --device=1 --level=RAID1 raid.1 raid.2 raid.3 --spares=1",
"text": "raid /x --device=1 --level=RAID1 --spares=1 raid.1 raid.2 raid.3\\n"
},
{
"cmd": "raid",
"cls": "RHEL8_Raid.cls RHEL8_RaidData.cls",
"vs": [
26100
],
"line": "/x --device=1 --level=RAID1 raid.1 raid.2 raid.3 --spares=2",
"text": "raid /x --device=1 --level=RAID1 --spares=2 raid.1 raid.2 raid.3\\n"
},
{
"cmd": "rhsm",
"cls": "RHEL8_RHSM.cls",
"vs": [
26100
],
"line": "--organization=o --activation-key=k",
"text": "# Red Hat Subscription Manager\\nrhsm --organization=\\\"o\\\" --activation-key=\\\"k\\\"\\n"
},
{
"cmd": "rhsm",
"cls": "RHEL8_RHSM.cls",
"vs": [
26100
],
"line": "--organization=o --activation-key=k --organization=QX",
"text": "# Red Hat Subscription Manager\\nrhsm --organization=\\\"QX\\\" --activation-key=\\\"k\\\"\\n"
},
{
"cmd": "rhsm",
"cls": "RHEL8_RHSM.cls",
"vs": [
26100
],
"line": "--organization=o --activation-key=k --activation-key=QX",
"text": "# Red Hat Subscription Manager\\nrhsm --organization=\\\"o\\\" --activation-key=\\\"k\\\" --activation-key=\\\"QX\\\"\\n"
},
{
"cmd": "rhsm",
"cls": "RHEL8_RHSM.cls",
"vs": [
26100
],
"line": "--organization=o --activation-key=k --connect-to-insights",
"text": "# Red Hat Subscription Manager\\nrhsm --organization=\\\"o\\\" --activation-key=\\\"k\\\" --connect-to-insights\\n"
},
{
"cmd": "rhsm",
"cls": "RHEL8_RHSM.cls",
"vs": [
26100
],
"line": "--organization=o --activation-key=k --proxy=QX",
"text": "# Red Hat Subscription Manager\\nrhsm --organization=\\\"o\\\" --activation-key=\\\"k\\\" --proxy=\\\"QX\\\"\\n"
},
{
"cmd": "rhsm",
"cls": "RHEL8_RHSM.cls",
"vs": [
26100
],
"line": "--organization=o --activation-key=k --server-hostname=QX",
"text": "# Red Hat Subscription Manager\\nrhsm --organization=\\\"o\\\" --activation-key=\\\"k\\\" --server-hostname=\\\"QX\\\"\\n"
},
{
"cmd": "rhsm",
"cls": "RHEL8_RHSM.cls",
"vs": [
26100
],
"line": "--organization=o --activation-key=k --rhsm-baseurl=QX",
"text": "# Red Hat Subscription Manager\\nrhsm --organization=\\\"o\\\" --activation-key=\\\"k\\\" --rhsm-baseurl=\\\"QX\\\"\\n"
},
{
"cmd": "rhsm",
"cls": "RHEL8_RHSM.cls",
"vs": [
26100
],
"line": "--organization=o --activation-key=k --activation-key=l --server-hostname=h --rhsm-baseurl=b --proxy=p --connect-to-insights",
"text": "# Red Hat Subscription Manager\\nrhsm --organization=\\\"o\\\" --activation-key=\\\"k\\\" --activation-key=\\\"l\\\" --connect-to-insights --proxy=\\\"p\\\" --server-hostname=\\\"h\\\" --rhsm-baseurl=\\\"b\\\"\\n"
},
{
"cmd": "syspurpose",
"cls": "RHEL8_Syspurpose.cls",
"vs": [
26100
],
"line": "",
"text": ""
},
{
"cmd": "syspurpose",
"cls": "RHEL8_Syspurpose.cls",
"vs": [
26100
],
"line": "--role=QX",
"text": "# Intended system purpose\\nsyspurpose --role=\\\"QX\\\"\\n"
},
{
"cmd": "syspurpose",
"cls": "RHEL8_Syspurpose.cls",
"vs": [
26100
],
"line": "--sla=QX",
"text": "# Intended system purpose\\nsyspurpose --sla=\\\"QX\\\"\\n"
},
{
"cmd": "syspurpose",
"cls": "RHEL8_Syspurpose.cls",
"vs": [
26100
],
"line": "--usage=QX",
"text": "# Intended system purpose\\nsyspurpose --usage=\\\"QX\\\"\\n"
},
{
"cmd": "syspurpose",
"cls": "RHEL8_Syspurpose.cls",
"vs": [
26100
],
"line": "--addon=QX",
"text": "# Intended system purpose\\nsyspurpose --addon=\\\"QX\\\"\\n"
},
{
"cmd": "syspurpose",
"cls": "RHEL8_Syspurpose.cls",
"vs": [
26100
],
"line": "--role=r --sla=s --usage=u --addon=a --addon=b",
"text": "# Intended system purpose\\nsyspurpose --role=\\\"r\\\" --sla=\\\"s\\\" --usage=\\\"u\\\" --addon=\\\"a\\\" --addon=\\\"b\\\"\\n"
},
{
"cmd": "syspurpose",
"cls": "RHEL8_Syspurpose.cls",
"vs": [
26100
],
"line": "--role=a",
"text": "# Intended system purpose\\nsyspurpose --role=\\\"a\\\"\\n"
},
{
"cmd": "syspurpose",
"cls": "RHEL8_Syspurpose.cls",
"vs": [
26100
],
"line": "--role=a --sla=QX",
"text": "# Intended system purpose\\nsyspurpose --role=\\\"a\\\" --sla=\\\"QX\\\"\\n"
},
{
"cmd": "syspurpose",
"cls": "RHEL8_Syspurpose.cls",
"vs": [
26100
],
"line": "--role=a --usage=QX",
"text": "# Intended system purpose\\nsyspurpose --role=\\\"a\\\" --usage=\\\"QX\\\"\\n"
},
{
"cmd": "syspurpose",
"cls": "RHEL8_Syspurpose.cls",
"vs": [
26100
],
"line": "--role=a --addon=QX",
"text": "# Intended system purpose\\nsyspurpose --role=\\\"a\\\" --addon=\\\"QX\\\"\\n"
},
{
"cmd": "volgroup",
"cls": "RHEL8_VolGroup.cls RHEL8_VolGroupData.cls",
"vs": [
26100
],
"line": "g pv.1",
"text": "volgroup g pv.1\\n"
},
{
"cmd": "volgroup",
"cls": "RHEL8_VolGroup.cls RHEL8_VolGroupData.cls",
"vs": [
26100
],
"line": "g pv.1 --noformat",
"text": null
},
{
"cmd": "volgroup",
"cls": "RHEL8_VolGroup.cls RHEL8_VolGroupData.cls",
"vs": [
26100
],
"line": "g pv.1 --pesize=42",
"text": "volgroup g --pesize=42 pv.1\\n"
},
{
"cmd": "volgroup",
"cls": "RHEL8_VolGroup.cls RHEL8_VolGroupData.cls",
"vs": [
26100
],
"line": "g pv.1 --useexisting",
"text": null
},
{
"cmd": "volgroup",
"cls": "RHEL8_VolGroup.cls RHEL8_VolGroupData.cls",
"vs": [
26100
],
"line": "g pv.1 --reserved-space=42",
"text": "volgroup g --reserved-space=42 pv.1\\n"
},
{
"cmd": "volgroup",
"cls": "RHEL8_VolGroup.cls RHEL8_VolGroupData.cls",
"vs": [
26100
],
"line": "g pv.1 --reserved-percent=42",
"text": "volgroup g --reserved-percent=42 pv.1\\n"
},
{
"cmd": "volgroup",
"cls": "RHEL8_VolGroup.cls RHEL8_VolGroupData.cls",
"vs": [
26100
],
"line": "g pv.1 pv.2 --pesize=8",
"text": "volgroup g --pesize=8 pv.1 pv.2\\n"
},
{
"cmd": "volgroup",
"cls": "RHEL8_VolGroup.cls RHEL8_VolGroupData.cls",
"vs": [
26100
],
"line": "g --noformat",
"text": "volgroup g --noformat --useexisting\\n"
},
{
"cmd": "volgroup",
"cls": "RHEL8_VolGroup.cls RHEL8_VolGroupData.cls",
"vs": [
26100
],
"line": "g --useexisting",
"text": "volgroup g --useexisting\\n"
},
{
"cmd": "volgroup",
"cls": "RHEL8_VolGroup.cls RHEL8_VolGroupData.cls",
"vs": [
26100
],
"line": "g --useexisting --noformat",
"text": "volgroup g --noformat --useexisting\\n"
}
]