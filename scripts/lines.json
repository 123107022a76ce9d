{"meta": {"0": {"cmd": "autopart", "cls": "F9_AutoPart.cls", "vs": [8000, 9000, 7000, 4100], "base": "", "bi": 0, "lines": ["--encrypted", "--passphrase=QX", "--escrowcert=QX", "--backuppassphrase", "--nolvm", "--type=lvm", "--type=btrfs", "--type=plain", "--type=partition", "--cipher=QX", "--type=thinp", "--fstype=QX", "--nohome", "--noboot", "--noswap", "--luks-version=QX", "--pbkdf=QX", "--pbkdf-memory=42", "--pbkdf-time=42", "--pbkdf-iterations=42"], "ok": true, "kind": "P", "d": "[(c!\"autopart\", .bool true), (c!\"encrypted\", .bool false), (c!\"passphrase\", .str c!\"\")]", "bsets": "[(c!\"autopart\", .bool true)]", "rows": {"--encrypted": "[(c!\"encrypted\", .bool true)]", "--passphrase=QX": "[(c!\"passphrase\", .str c!\"QX\")]", "--escrowcert=QX": "REFUSED", "--backuppassphrase": "REFUSED", "--nolvm": "REFUSED", "--type=lvm": "REFUSED", "--type=btrfs": "REFUSED", "--type=plain": "REFUSED", "--type=partition": "REFUSED", "--cipher=QX": "REFUSED", "--type=thinp": "REFUSED", "--fstype=QX": "REFUSED", "--nohome": "REFUSED", "--noboot": "REFUSED", "--noswap": "REFUSED", "--luks-version=QX": "REFUSED", "--pbkdf=QX": "REFUSED", "--pbkdf-memory=42": "REFUSED", "--pbkdf-time=42": "REFUSED", "--pbkdf-iterations=42": "REFUSED"}}, "1": {"cmd": "autostep", "cls": "FC3_AutoStep.cls", "vs": [8000, 9000, 10000, 11000, 12000, 13000, 14000, 15000, 16000, 17000, 18000, 19000, 20000, 21000, 22000, 23000, 24000, 25000, 26000, 27000, 30000, 31000, 32000, 33000, 5000, 6000, 7000, 1000, 2000, 3000, 4000, 900, 1100, 4100, 11100, 19100, 26100], "base": "", "bi": 0, "lines": ["--autoscreenshot"], "ok": true, "kind": "P", "d": "[(c!\"autostep\", .bool true), (c!\"autoscreenshot\", .bool false)]", "bsets": "[(c!\"autostep\", .bool true)]", "rows": {"--autoscreenshot": "[(c!\"autoscreenshot\", .bool true)]"}}, "2": {"cmd": "bootloader", "cls": "F8_Bootloader.cls", "vs": [8000, 9000, 6000, 7000], "base": "", "bi": 0, "lines": ["--append=QX", "--location=mbr", "--location=partition", "--location=none", "--location=boot", "--lba32", "--password=QX", "--md5pass=QX", "--upgrade", "--driveorder=QX", "--timeout=42", "--default=QX", "--iscrypted", "--boot-drive=QX", "--leavebootorder", "--extlinux", "--disabled", "--nombr", "--linear", "--nolinear", "--useLilo", "--hvargs=QX"], "ok": true, "kind": "P", "d": "[(c!\"driveorder\", .list []), (c!\"appendLine\", .str c!\"\"), (c!\"forceLBA\", .bool false), (c!\"location\", .str c!\"mbr\"), (c!\"md5pass\", .str c!\"\"), (c!\"password\", .str c!\"\"), (c!\"upgrade\", .bool false), (c!\"timeout\", .none), (c!\"default\", .str c!\"\")]", "bsets": "[(c!\"location\", .str c!\"mbr\")]", "rows": {"--append=QX": "[(c!\"appendLine\", .str c!\"QX\")]", "--location=mbr": "[]", "--location=partition": "[(c!\"location\", .str c!\"partition\")]", "--location=none": "[(c!\"location\", .str c!\"none\")]", "--location=boot": "[(c!\"location\", .str c!\"boot\")]", "--lba32": "[(c!\"forceLBA\", .bool true)]", "--password=QX": "[(c!\"password\", .str c!\"QX\")]", "--md5pass=QX": "[(c!\"md5pass\", .str c!\"QX\")]", "--upgrade": "[(c!\"upgrade\", .bool true)]", "--driveorder=QX": "[(c!\"driveorder\", .list [c!\"QX\"])]", "--timeout=42": "[(c!\"timeout\", .int 42)]", "--default=QX": "[(c!\"default\", .str c!\"QX\")]", "--iscrypted": "REFUSED", "--boot-drive=QX": "REFUSED", "--leavebootorder": "REFUSED", "--extlinux": "REFUSED", "--disabled": "REFUSED", "--nombr": "REFUSED", "--linear": "REFUSED", "--nolinear": "REFUSED", "--useLilo": "REFUSED", "--hvargs=QX": "REFUSED"}}, "3": {"cmd": "cdrom", "cls": "FC3_Cdrom.cls", "vs": [8000, 9000, 10000, 11000, 12000, 13000, 14000, 15000, 16000, 17000, 18000, 19000, 20000, 21000, 22000, 23000, 24000, 25000, 26000, 27000, 30000, 31000, 32000, 33000, 34000, 5000, 6000, 7000, 1000, 2000, 3000, 4000, 900, 1100, 4100, 11100, 19100, 26100], "base": "", "bi": 0, "lines": ["x", "--x"], "ok": true, "kind": "P", "d": "[]", "bsets": "[]", "rows": {"x": "REFUSED", "--x": "REFUSED"}}, "4": {"cmd": "clearpart", "cls": "FC3_ClearPart.cls", "vs": [8000, 9000, 10000, 11000, 12000, 13000, 14000, 5000, 6000, 7000, 1000, 2000, 3000, 4000, 900, 1100, 4100, 11100], "base": "", "bi": 0, "lines": ["--all", "--drives=QX", "--initlabel", "--linux", "--none", "--list=QX", "--disklabel=QX", "--cdl"], "ok": true, "kind": "P", "d": "[(c!\"drives\", .list []), (c!\"initAll\", .bool false), (c!\"type\", .none)]", "bsets": "[]", "rows": {"--all": "[(c!\"type\", .int 1)]", "--drives=QX": "[(c!\"drives\", .list [c!\"QX\"])]", "--initlabel": "[(c!\"initAll\", .bool true)]", "--linux": "[(c!\"type\", .int 0)]", "--none": "[(c!\"type\", .int 2)]", "--list=QX": "REFUSED", "--disklabel=QX": "REFUSED", "--cdl": "REFUSED"}}, "5": {"cmd": "clearpart", "cls": "FC3_ClearPart.cls", "vs": [8000, 9000, 10000, 11000, 12000, 13000, 14000, 5000, 6000, 7000, 1000, 2000, 3000, 4000, 900, 1100, 4100, 11100], "base": "--all", "bi": 1, "lines": ["--initlabel", "--drives=QX", "--linux"], "ok": true, "kind": "P", "d": "[(c!\"drives\", .list []), (c!\"initAll\", .bool false), (c!\"type\", .int 1)]", "bsets": "[(c!\"type\", .int 1)]", "rows": {"--initlabel": "[(c!\"initAll\", .bool true)]", "--drives=QX": "[(c!\"drives\", .list [c!\"QX\"])]", "--linux": "[(c!\"type\", .int 0)]"}}, "6": {"cmd": "cmdline", "cls": "FC3_DisplayMode.cls", "vs": [8000, 9000, 10000, 11000, 12000, 13000, 14000, 15000, 16000, 17000, 18000, 19000, 20000, 21000, 22000, 23000, 5000, 6000, 7000, 1000, 2000, 3000, 4000, 900, 1100, 4100, 11100, 19100], "base": "", "bi": 0, "lines": ["--non-interactive"], "ok": true, "kind": "P", "d": "[(c!\"displayMode\", .int 0)]", "bsets": "[(c!\"displayMode\", .int 0)]", "rows": {"--non-interactive": "REFUSED"}}, "7": {"cmd": "device", "cls": "F8_Device.cls F8_DeviceData.cls", "vs": [8000, 9000, 10000, 11000, 12000, 13000, 14000, 15000, 16000, 17000, 18000, 19000, 20000, 21000, 6000, 7000, 11100, 19100], "base": "e100", "bi": 0, "lines": ["--opts=QX"], "ok": true, "kind": "L", "d": "[(c!\"lineno\", .int 7), (c!\"moduleName\", .str c!\"e100\"), (c!\"moduleOpts\", .str c!\"\")]", "bsets": "[]", "rows": {"--opts=QX": "[(c!\"moduleOpts\", .str c!\"QX\")]"}}, "8": {"cmd": "device", "cls": "F8_Device.cls F8_DeviceData.cls", "vs": [8000, 9000, 10000, 11000, 12000, 13000, 14000, 15000, 16000, 17000, 18000, 19000, 20000, 21000, 6000, 7000, 11100, 19100], "base": "scsi e100", "bi": 1, "lines": ["--opts=QX"], "ok": false}, "9": {"cmd": "dmraid", "cls": "FC6_DmRaid.cls FC6_DmRaidData.cls", "vs": [8000, 9000, 10000, 11000, 12000, 13000, 14000, 15000, 16000, 17000, 18000, 19000, 20000, 21000, 5000, 6000, 7000, 4000, 4100, 11100, 19100], "base": "--name=n --dev=d", "bi": 0, "lines": ["--name=QX", "--dev=QX"], "ok": true, "kind": "L", "d": "[(c!\"lineno\", .int 7), (c!\"name\", .str c!\"n\"), (c!\"devices\", .list [c!\"d\"]), (c!\"dmset\", .none)]", "bsets": "[]", "rows": {"--name=QX": "[(c!\"name\", .str c!\"QX\")]", "--dev=QX": "[(c!\"devices\", .list [c!\"d\", c!\"QX\"])]"}}, "10": {"cmd": "driverdisk", "cls": "FC4_DriverDisk.cls FC4_DriverDiskData.cls", "vs": [8000, 9000, 5000, 6000, 7000, 2000, 3000, 4000, 1100], "base": "d", "bi": 0, "lines": ["--source=QX", "--type=QX", "--biospart=QX"], "ok": true, "kind": "L", "d": "[(c!\"lineno\", .int 7), (c!\"partition\", .str c!\"d\"), (c!\"source\", .str c!\"\"), (c!\"type\", .str c!\"\"), (c!\"biospart\", .str c!\"\")]", "bsets": "[]", "rows": {"--source=QX": "REFUSED", "--type=QX": "[(c!\"type\", .str c!\"QX\")]", "--biospart=QX": "REFUSED"}}, "11": {"cmd": "driverdisk", "cls": "FC4_DriverDisk.cls FC4_DriverDiskData.cls", "vs": [8000, 9000, 5000, 6000, 7000, 2000, 3000, 4000, 1100], "base": "--source=s", "bi": 1, "lines": [], "ok": true, "kind": "L", "d": "[(c!\"lineno\", .int 7), (c!\"partition\", .list []), (c!\"source\", .str c!\"s\"), (c!\"type\", .str c!\"\"), (c!\"biospart\", .str c!\"\")]", "bsets": "[]", "rows": {}}, "12": {"cmd": "driverdisk", "cls": "FC4_DriverDisk.cls FC4_DriverDiskData.cls", "vs": [8000, 9000, 5000, 6000, 7000, 2000, 3000, 4000, 1100], "base": "--biospart=b", "bi": 2, "lines": [], "ok": true, "kind": "L", "d": "[(c!\"lineno\", .int 7), (c!\"partition\", .list []), (c!\"source\", .str c!\"\"), (c!\"type\", .str c!\"\"), (c!\"biospart\", .str c!\"b\")]", "bsets": "[]", "rows": {}}, "13": {"cmd": "firewall", "cls": "F10_Firewall.cls", "vs": [8000, 9000, 10000, 11000, 11100], "base": "", "bi": 0, "lines": ["--disable", "--disabled", "--enable", "--enabled", "--port=QX:tcp", "--trust=QX", "--service=QX", "--ftp", "--http", "--smtp", "--ssh", "--telnet=QX", "--remove-service=QX", "--use-system-defaults", "--telnet", "--high=QX", "--medium=QX"], "ok": true, "kind": "P", "d": "[(c!\"enabled\", .bool true), (c!\"ports\", .list []), (c!\"trusts\", .list []), (c!\"services\", .list [])]", "bsets": "[(c!\"enabled\", .bool true)]", "rows": {"--disable": "[(c!\"enabled\", .bool false)]", "--disabled": "[(c!\"enabled\", .bool false)]", "--enable": "[]", "--enabled": "[]", "--port=QX:tcp": "[(c!\"ports\", .list [c!\"QX:tcp\"])]", "--trust=QX": "[(c!\"trusts\", .list [c!\"QX\"])]", "--service=QX": "[(c!\"services\", .list [c!\"QX\"])]", "--ftp": "[(c!\"services\", .list [c!\"ftp\"])]", "--http": "[(c!\"services\", .list [c!\"http\"])]", "--smtp": "[(c!\"services\", .list [c!\"smtp\"])]", "--ssh": "[(c!\"services\", .list [c!\"ssh\"])]", "--telnet=QX": "[(c!\"telnet\", .str c!\"QX\")]", "--remove-service=QX": "REFUSED", "--use-system-defaults": "REFUSED", "--telnet": "REFUSED", "--high=QX": "REFUSED", "--medium=QX": "REFUSED"}}, "14": {"cmd": "firstboot", "cls": "FC3_Firstboot.cls", "vs": [8000, 9000, 10000, 11000, 12000, 13000, 14000, 15000, 16000, 17000, 18000, 19000, 20000, 21000, 22000, 23000, 24000, 25000, 26000, 27000, 30000, 31000, 32000, 33000, 34000, 5000, 6000, 7000, 1000, 2000, 3000, 4000, 900, 1100, 4100, 11100, 19100, 26100], "base": "", "bi": 0, "lines": ["--disable", "--disabled", "--enable", "--enabled", "--reconfig"], "ok": true, "kind": "P", "d": "[(c!\"firstboot\", .none)]", "bsets": "[]", "rows": {"--disable": "[(c!\"firstboot\", .int 1)]", "--disabled": "[(c!\"firstboot\", .int 1)]", "--enable": "[(c!\"firstboot\", .int 0)]", "--enabled": "[(c!\"firstboot\", .int 0)]", "--reconfig": "[(c!\"firstboot\", .int 2)]"}}, "15": {"cmd": "graphical", "cls": "FC3_DisplayMode.cls", "vs": [8000, 9000, 10000, 11000, 12000, 13000, 14000, 15000, 16000, 17000, 18000, 19000, 20000, 21000, 22000, 23000, 5000, 6000, 7000, 1000, 2000, 3000, 4000, 900, 1100, 4100, 11100, 19100], "base": "", "bi": 0, "lines": ["--non-interactive"], "ok": true, "kind": "P", "d": "[(c!\"displayMode\", .int 1)]", "bsets": "[(c!\"displayMode\", .int 1)]", "rows": {"--non-interactive": "REFUSED"}}, "16": {"cmd": "halt", "cls": "FC6_Reboot.cls", "vs": [8000, 9000, 10000, 11000, 12000, 13000, 14000, 15000, 5000, 6000, 7000, 4000, 4100, 11100], "base": "", "bi": 0, "lines": ["--eject", "--kexec"], "ok": true, "kind": "P", "d": "[(c!\"action\", .none), (c!\"eject\", .bool false)]", "bsets": "[]", "rows": {"--eject": "[(c!\"eject\", .bool true)]", "--kexec": "REFUSED"}}, "17": {"cmd": "harddrive", "cls": "FC3_HardDrive.cls", "vs": [8000, 9000, 10000, 11000, 12000, 13000, 14000, 15000, 16000, 17000, 18000, 19000, 20000, 21000, 22000, 23000, 24000, 25000, 26000, 27000, 30000, 31000, 32000, 5000, 6000, 7000, 1000, 2000, 3000, 4000, 900, 1100, 4100, 11100, 19100, 26100], "base": "--dir=d --partition=p", "bi": 0, "lines": ["--biospart=QX", "--partition=QX", "--dir=QX"], "ok": true, "kind": "P", "d": "[(c!\"biospart\", .none), (c!\"partition\", .str c!\"p\"), (c!\"dir\", .str c!\"d\")]", "bsets": "[(c!\"partition\", .str c!\"p\"), (c!\"dir\", .str c!\"d\")]", "rows": {"--biospart=QX": "REFUSED", "--partition=QX": "[(c!\"partition\", .str c!\"QX\")]", "--dir=QX": "[(c!\"dir\", .str c!\"QX\")]"}}, "18": {"cmd": "harddrive", "cls": "FC3_HardDrive.cls", "vs": [8000, 9000, 10000, 11000, 12000, 13000, 14000, 15000, 16000, 17000, 18000, 19000, 20000, 21000, 22000, 23000, 24000, 25000, 26000, 27000, 30000, 31000, 32000, 5000, 6000, 7000, 1000, 2000, 3000, 4000, 900, 1100, 4100, 11100, 19100, 26100], "base": "--dir=d --biospart=b", "bi": 1, "lines": ["--partition=QX", "--dir=QX"], "ok": true, "kind": "P", "d": "[(c!\"biospart\", .str c!\"b\"), (c!\"partition\", .none), (c!\"dir\", .str c!\"d\")]", "bsets": "[(c!\"biospart\", .str c!\"b\"), (c!\"dir\", .str c!\"d\")]", "rows": {"--partition=QX": "REFUSED", "--dir=QX": "[(c!\"dir\", .str c!\"QX\")]"}}, "19": {"cmd": "ignoredisk", "cls": "F8_IgnoreDisk.cls", "vs": [8000, 9000, 10000, 11000, 6000, 7000, 1100, 4100], "base": "--drives=a", "bi": 0, "lines": ["--drives=QX", "--only-use=QX", "--interactive"], "ok": true, "kind": "P", "d": "[(c!\"ignoredisk\", .list [c!\"a\"]), (c!\"onlyuse\", .list [])]", "bsets": "[(c!\"ignoredisk\", .list [c!\"a\"])]", "rows": {"--drives=QX": "[(c!\"ignoredisk\", .list [c!\"QX\"])]", "--only-use=QX": "REFUSED", "--interactive": "REFUSED"}}, "20": {"cmd": "ignoredisk", "cls": "F8_IgnoreDisk.cls", "vs": [8000, 9000, 10000, 11000, 6000, 7000, 1100, 4100], "base": "--only-use=a", "bi": 1, "lines": ["--drives=QX", "--only-use=QX"], "ok": true, "kind": "P", "d": "[(c!\"ignoredisk\", .list []), (c!\"onlyuse\", .list [c!\"a\"])]", "bsets": "[(c!\"onlyuse\", .list [c!\"a\"])]", "rows": {"--drives=QX": "REFUSED", "--only-use=QX": "[(c!\"onlyuse\", .list [c!\"QX\"])]"}}, "21": {"cmd": "ignoredisk", "cls": "F8_IgnoreDisk.cls", "vs": [8000, 9000, 10000, 11000, 6000, 7000, 1100, 4100], "base": "--interactive", "bi": 2, "lines": ["--only-use=QX"], "ok": false}, "22": {"cmd": "install", "cls": "FC3_Upgrade.cls", "vs": [8000, 5000, 6000, 7000, 1000, 2000, 3000, 4000, 900, 1100, 4100], "base": "", "bi": 0, "lines": ["--root-device=QX"], "ok": true, "kind": "P", "d": "[(c!\"upgrade\", .bool false)]", "bsets": "[(c!\"upgrade\", .bool false)]", "rows": {"--root-device=QX": "REFUSED"}}, "23": {"cmd": "interactive", "cls": "FC3_Interactive.cls", "vs": [8000, 9000, 10000, 11000, 5000, 6000, 7000, 1000, 2000, 3000, 4000, 900, 1100, 4100, 11100], "base": "", "bi": 0, "lines": ["x"], "ok": true, "kind": "P", "d": "[(c!\"interactive\", .bool true)]", "bsets": "[(c!\"interactive\", .bool true)]", "rows": {"x": "REFUSED"}}, "24": {"cmd": "iscsi", "cls": "F10_Iscsi.cls F10_IscsiData.cls", "vs": [8000, 9000, 10000, 11000, 12000, 13000, 14000], "base": "--ipaddr=i", "bi": 0, "lines": ["--target=QX", "--ipaddr=QX", "--port=42", "--user=QX", "--password=QX", "--reverse-user=QX", "--reverse-password=QX", "--iface=QX"], "ok": true, "kind": "L", "d": "[(c!\"lineno\", .int 7), (c!\"ipaddr\", .str c!\"i\"), (c!\"port\", .int 3260), (c!\"target\", .str c!\"\"), (c!\"user\", .none), (c!\"password\", .none), (c!\"user_in\", .none), (c!\"password_in\", .none)]", "bsets": "[]", "rows": {"--target=QX": "[(c!\"target\", .str c!\"QX\")]", "--ipaddr=QX": "[(c!\"ipaddr\", .str c!\"QX\")]", "--port=42": "[(c!\"port\", .int 42)]", "--user=QX": "[(c!\"user\", .str c!\"QX\")]", "--password=QX": "[(c!\"password\", .str c!\"QX\")]", "--reverse-user=QX": "[(c!\"user_in\", .str c!\"QX\")]", "--reverse-password=QX": "[(c!\"password_in\", .str c!\"QX\")]", "--iface=QX": "REFUSED"}}, "25": {"cmd": "iscsiname", "cls": "FC6_IscsiName.cls", "vs": [8000, 9000, 10000, 11000, 12000, 13000, 14000, 15000, 16000, 17000, 18000, 19000, 20000, 21000, 22000, 23000, 24000, 25000, 26000, 27000, 30000, 31000, 32000, 33000, 34000, 5000, 6000, 7000, 4000, 4100, 11100, 19100, 26100], "base": "I", "bi": 0, "lines": [], "ok": true, "kind": "P", "d": "[(c!\"iscsiname\", .str c!\"I\")]", "bsets": "[(c!\"iscsiname\", .str c!\"I\")]", "rows": {}}, "26": {"cmd": "keyboard", "cls": "FC3_Keyboard.cls", "vs": [8000, 9000, 10000, 11000, 12000, 13000, 14000, 15000, 5000, 6000, 7000, 1000, 2000, 3000, 4000, 900, 1100, 4100, 11100], "base": "K", "bi": 0, "lines": ["--vckeymap=QX", "--xlayouts=QX", "--switch=QX"], "ok": true, "kind": "P", "d": "[(c!\"keyboard\", .str c!\"K\")]", "bsets": "[(c!\"keyboard\", .str c!\"K\")]", "rows": {"--vckeymap=QX": "REFUSED", "--xlayouts=QX": "REFUSED", "--switch=QX": "REFUSED"}}, "27": {"cmd": "keyboard", "cls": "FC3_Keyboard.cls", "vs": [8000, 9000, 10000, 11000, 12000, 13000, 14000, 15000, 5000, 6000, 7000, 1000, 2000, 3000, 4000, 900, 1100, 4100, 11100], "base": "--vckeymap=v", "bi": 1, "lines": ["--xlayouts=QX", "--switch=QX"], "ok": false}, "28": {"cmd": "lang", "cls": "FC3_Lang.cls", "vs": [8000, 9000, 10000, 11000, 12000, 13000, 14000, 15000, 16000, 5000, 6000, 7000, 1000, 2000, 3000, 4000, 900, 1100, 4100, 11100], "base": "L", "bi": 0, "lines": ["--addsupport=QX"], "ok": true, "kind": "P", "d": "[(c!\"lang\", .str c!\"L\")]", "bsets": "[(c!\"lang\", .str c!\"L\")]", "rows": {"--addsupport=QX": "REFUSED"}}, "29": {"cmd": "logging", "cls": "FC6_Logging.cls", "vs": [8000, 9000, 10000, 11000, 12000, 13000, 14000, 15000, 16000, 17000, 18000, 19000, 20000, 21000, 22000, 23000, 24000, 25000, 26000, 27000, 30000, 31000, 32000, 33000, 5000, 6000, 7000, 4000, 4100, 11100, 19100, 26100], "base": "", "bi": 0, "lines": ["--host=QX", "--port=QX", "--level=debug", "--level=info", "--level=warning", "--level=error", "--level=critical", "--level=QX"], "ok": true, "kind": "P", "d": "[(c!\"host\", .str c!\"\"), (c!\"level\", .str c!\"info\"), (c!\"port\", .str c!\"\"), (c!\"_level_provided\", .bool true)]", "bsets": "[(c!\"_level_provided\", .bool true)]", "rows": {"--host=QX": "[(c!\"host\", .str c!\"QX\")]", "--port=QX": "REFUSED", "--level=debug": "[(c!\"level\", .str c!\"debug\")]", "--level=info": "[]", "--level=warning": "[(c!\"level\", .str c!\"warning\")]", "--level=error": "[(c!\"level\", .str c!\"error\")]", "--level=critical": "[(c!\"level\", .str c!\"critical\")]", "--level=QX": "REFUSED"}}, "30": {"cmd": "logging", "cls": "FC6_Logging.cls", "vs": [8000, 9000, 10000, 11000, 12000, 13000, 14000, 15000, 16000, 17000, 18000, 19000, 20000, 21000, 22000, 23000, 24000, 25000, 26000, 27000, 30000, 31000, 32000, 33000, 5000, 6000, 7000, 4000, 4100, 11100, 19100, 26100], "base": "--host=h", "bi": 1, "lines": ["--port=QX", "--level=debug"], "ok": true, "kind": "P", "d": "[(c!\"host\", .str c!\"h\"), (c!\"level\", .str c!\"info\"), (c!\"port\", .str c!\"\"), (c!\"_level_provided\", .bool true)]", "bsets": "[(c!\"host\", .str c!\"h\"), (c!\"_level_provided\", .bool true)]", "rows": {"--port=QX": "[(c!\"port\", .str c!\"QX\")]", "--level=debug": "[(c!\"level\", .str c!\"debug\")]"}}, "31": {"cmd": "logvol", "cls": "F9_LogVol.cls F9_LogVolData.cls", "vs": [8000, 9000, 7000], "base": "/x --name=n --vgname=g --size=1", "bi": 0, "lines": ["--fstype=QX", "--grow", "--maxsize=42", "--name=QX", "--noformat", "--percent=42", "--recommended", "--size=42", "--useexisting", "--vgname=QX", "--fsoptions=QX", "--bytes-per-inode=QX", "--fsprofile=QX", "--encrypted", "--passphrase=QX", "--escrowcert=QX", "--backuppassphrase", "--label=QX", "--resize", "--hibernation", "--cipher=QX", "--thinpool", "--thin", "--poolname=QX", "--chunksize=42", "--metadatasize=42", "--profile=QX", "--cachesize=42", "--cachemode=QX", "--cachepvs=QX", "--mkfsoptions=QX", "--luks-version=QX", "--pbkdf=QX", "--pbkdf-memory=42", "--pbkdf-time=42", "--pbkdf-iterations=42", "--bytes-per-inode=42"], "ok": true, "kind": "L", "d": "[(c!\"lineno\", .int 7), (c!\"fstype\", .str c!\"\"), (c!\"grow\", .bool false), (c!\"maxSizeMB\", .int 0), (c!\"name\", .str c!\"n\"), (c!\"format\", .bool true), (c!\"percent\", .int 0), (c!\"recommended\", .bool false), (c!\"size\", .int 1), (c!\"preexist\", .bool false), (c!\"vgname\", .str c!\"g\"), (c!\"mountpoint\", .str c!\"/x\"), (c!\"fsopts\", .str c!\"\"), (c!\"fsprofile\", .str c!\"\"), (c!\"encrypted\", .bool false), (c!\"passphrase\", .str c!\"\"), (c!\"mntpoint\", .list [c!\"/x\"])]", "bsets": "[]", "rows": {"--fstype=QX": "[(c!\"fstype\", .str c!\"QX\")]", "--grow": "[(c!\"grow\", .bool true)]", "--maxsize=42": "[(c!\"maxSizeMB\", .int 42)]", "--name=QX": "[(c!\"name\", .str c!\"QX\")]", "--noformat": "[(c!\"format\", .bool false), (c!\"preexist\", .bool true)]", "--percent=42": "[(c!\"percent\", .int 42)]", "--recommended": "[(c!\"recommended\", .bool true)]", "--size=42": "[(c!\"size\", .int 42)]", "--useexisting": "[(c!\"preexist\", .bool true)]", "--vgname=QX": "[(c!\"vgname\", .str c!\"QX\")]", "--fsoptions=QX": "[(c!\"fsopts\", .str c!\"QX\")]", "--bytes-per-inode=QX": "[(c!\"bytes_per_inode\", .str c!\"QX\")]", "--fsprofile=QX": "[(c!\"fsprofile\", .str c!\"QX\")]", "--encrypted": "[(c!\"encrypted\", .bool true)]", "--passphrase=QX": "[(c!\"passphrase\", .str c!\"QX\")]", "--escrowcert=QX": "REFUSED", "--backuppassphrase": "REFUSED", "--label=QX": "REFUSED", "--resize": "REFUSED", "--hibernation": "REFUSED", "--cipher=QX": "REFUSED", "--thinpool": "REFUSED", "--thin": "REFUSED", "--poolname=QX": "REFUSED", "--chunksize=42": "REFUSED", "--metadatasize=42": "REFUSED", "--profile=QX": "REFUSED", "--cachesize=42": "REFUSED", "--cachemode=QX": "REFUSED", "--cachepvs=QX": "REFUSED", "--mkfsoptions=QX": "REFUSED", "--luks-version=QX": "REFUSED", "--pbkdf=QX": "REFUSED", "--pbkdf-memory=42": "REFUSED", "--pbkdf-time=42": "REFUSED", "--pbkdf-iterations=42": "REFUSED", "--bytes-per-inode=42": "[(c!\"bytes_per_inode\", .str c!\"42\")]"}}, "32": {"cmd": "logvol", "cls": "F9_LogVol.cls F9_LogVolData.cls", "vs": [8000, 9000, 7000], "base": "/x --name=n --vgname=g --useexisting", "bi": 1, "lines": ["--size=42", "--resize", "--noformat", "--fstype=ext4"], "ok": true, "kind": "L", "d": "[(c!\"lineno\", .int 7), (c!\"fstype\", .str c!\"\"), (c!\"grow\", .bool false), (c!\"maxSizeMB\", .int 0), (c!\"name\", .str c!\"n\"), (c!\"format\", .bool true), (c!\"percent\", .int 0), (c!\"recommended\", .bool false), (c!\"size\", .none), (c!\"preexist\", .bool true), (c!\"vgname\", .str c!\"g\"), (c!\"mountpoint\", .str c!\"/x\"), (c!\"fsopts\", .str c!\"\"), (c!\"fsprofile\", .str c!\"\"), (c!\"encrypted\", .bool false), (c!\"passphrase\", .str c!\"\"), (c!\"mntpoint\", .list [c!\"/x\"])]", "bsets": "[]", "rows": {"--size=42": "[(c!\"size\", .int 42)]", "--resize": "REFUSED", "--noformat": "[(c!\"format\", .bool false)]", "--fstype=ext4": "[(c!\"fstype\", .str c!\"ext4\")]"}}, "33": {"cmd": "logvol", "cls": "F9_LogVol.cls F9_LogVolData.cls", "vs": [8000, 9000, 7000], "base": "/x --name=n --vgname=g", "bi": 2, "lines": ["--percent=42", "--useexisting", "--noformat"], "ok": true, "kind": "L", "d": "[(c!\"lineno\", .int 7), (c!\"fstype\", .str c!\"\"), (c!\"grow\", .bool false), (c!\"maxSizeMB\", .int 0), (c!\"name\", .str c!\"n\"), (c!\"format\", .bool true), (c!\"percent\", .int 0), (c!\"recommended\", .bool false), (c!\"size\", .none), (c!\"preexist\", .bool false), (c!\"vgname\", .str c!\"g\"), (c!\"mountpoint\", .str c!\"/x\"), (c!\"fsopts\", .str c!\"\"), (c!\"fsprofile\", .str c!\"\"), (c!\"encrypted\", .bool false), (c!\"passphrase\", .str c!\"\"), (c!\"mntpoint\", .list [c!\"/x\"])]", "bsets": "[]", "rows": {"--percent=42": "[(c!\"percent\", .int 42)]", "--useexisting": "[(c!\"preexist\", .bool true)]", "--noformat": "[(c!\"format\", .bool false), (c!\"preexist\", .bool true)]"}}, "34": {"cmd": "logvol", "cls": "F9_LogVol.cls F9_LogVolData.cls", "vs": [8000, 9000, 7000], "base": "/x --name=n --vgname=g --size=1 --poolname=p", "bi": 3, "lines": ["--thin", "--thinpool", "--label=QX"], "ok": false}, "35": {"cmd": "logvol", "cls": "F9_LogVol.cls F9_LogVolData.cls", "vs": [8000, 9000, 7000], "base": "none --name=n --vgname=g --size=1 --thinpool", "bi": 4, "lines": ["--chunksize=42", "--metadatasize=42", "--profile=QX", "--grow"], "ok": false}, "36": {"cmd": "logvol", "cls": "F9_LogVol.cls F9_LogVolData.cls", "vs": [8000, 9000, 7000], "base": "/x --name=n --vgname=g --size=1 --cachepvs=a --cachesize=5", "bi": 5, "lines": ["--cachemode=writeback", "--cachemode=writethrough"], "ok": false}, "37": {"cmd": "mediacheck", "cls": "FC4_MediaCheck.cls", "vs": [8000, 9000, 10000, 11000, 12000, 13000, 14000, 15000, 16000, 17000, 18000, 19000, 20000, 21000, 22000, 23000, 24000, 25000, 26000, 27000, 30000, 31000, 32000, 33000, 34000, 5000, 6000, 7000, 2000, 3000, 4000, 4100, 11100, 19100, 26100], "base": "", "bi": 0, "lines": ["x"], "ok": true, "kind": "P", "d": "[(c!\"mediacheck\", .bool true)]", "bsets": "[(c!\"mediacheck\", .bool true)]", "rows": {"x": "REFUSED"}}, "38": {"cmd": "multipath", "cls": "FC6_MultiPath.cls FC6_MultiPathData.cls", "vs": [8000, 9000, 10000, 11000, 12000, 13000, 14000, 15000, 16000, 17000, 18000, 19000, 20000, 21000, 5000, 6000, 7000, 4000, 4100, 11100, 19100], "base": "--name=n --device=d --rule=r", "bi": 0, "lines": ["--name=QX", "--device=QX", "--rule=QX"], "ok": true, "kind": "L", "d": "[(c!\"lineno\", .int 0), (c!\"name\", .str c!\"n\"), (c!\"paths\", .pairs [(c!\"d\", c!\"r\")])]", "bsets": "[]", "rows": {"--name=QX": "[(c!\"name\", .str c!\"QX\")]", "--device=QX": "[(c!\"paths\", .pairs [(c!\"QX\", c!\"r\")])]", "--rule=QX": "[(c!\"paths\", .pairs [(c!\"d\", c!\"QX\")])]"}}, "39": {"cmd": "network", "cls": "F9_Network.cls F8_NetworkData.cls", "vs": [8000, 9000, 10000, 11000, 12000, 13000, 7000], "base": "", "bi": 0, "lines": ["--bootproto=dhcp", "--bootproto=bootp", "--bootproto=static", "--bootproto=query", "--dhcpclass=QX", "--device=QX", "--essid=QX", "--ethtool=QX", "--gateway=QX", "--hostname=QX", "--ip=QX", "--mtu=QX", "--nameserver=QX", "--netmask=QX", "--nodns", "--onboot=yes", "--onboot=off", "--wepkey=QX", "--notksdevice", "--noipv4", "--noipv6", "--ipv6=QX", "--bootproto=ibft", "--activate", "--nodefroute", "--wpakey=QX", "--bondslaves=QX", "--bondopts=QX", "--vlanid=QX", "--ipv6gateway=QX", "--teamslaves=QX", "--teamconfig=QX", "--interfacename=QX", "--bridgeslaves=QX", "--bridgeopts=QX", "--no-activate", "--bindto=mac"], "ok": true, "kind": "L", "d": "[(c!\"lineno\", .int 7), (c!\"bootProto\", .str c!\"dhcp\"), (c!\"dhcpclass\", .str c!\"\"), (c!\"device\", .str c!\"\"), (c!\"essid\", .str c!\"\"), (c!\"ethtool\", .str c!\"\"), (c!\"gateway\", .str c!\"\"), (c!\"hostname\", .str c!\"\"), (c!\"ip\", .str c!\"\"), (c!\"mtu\", .str c!\"\"), (c!\"nameserver\", .str c!\"\"), (c!\"netmask\", .str c!\"\"), (c!\"nodns\", .bool false), (c!\"onboot\", .bool true), (c!\"wepkey\", .str c!\"\"), (c!\"notksdevice\", .bool false), (c!\"noipv4\", .bool false), (c!\"noipv6\", .bool false), (c!\"ipv6\", .str c!\"\")]", "bsets": "[]", "rows": {"--bootproto=dhcp": "[]", "--bootproto=bootp": "[(c!\"bootProto\", .str c!\"bootp\")]", "--bootproto=static": "[(c!\"bootProto\", .str c!\"static\")]", "--bootproto=query": "[(c!\"bootProto\", .str c!\"query\")]", "--dhcpclass=QX": "[(c!\"dhcpclass\", .str c!\"QX\")]", "--device=QX": "[(c!\"device\", .str c!\"QX\")]", "--essid=QX": "[(c!\"essid\", .str c!\"QX\")]", "--ethtool=QX": "[(c!\"ethtool\", .str c!\"QX\")]", "--gateway=QX": "[(c!\"gateway\", .str c!\"QX\")]", "--hostname=QX": "[(c!\"hostname\", .str c!\"QX\")]", "--ip=QX": "[(c!\"ip\", .str c!\"QX\")]", "--mtu=QX": "[(c!\"mtu\", .str c!\"QX\")]", "--nameserver=QX": "[(c!\"nameserver\", .str c!\"QX\")]", "--netmask=QX": "[(c!\"netmask\", .str c!\"QX\")]", "--nodns": "[(c!\"nodns\", .bool true)]", "--onboot=yes": "[]", "--onboot=off": "[(c!\"onboot\", .bool false)]", "--wepkey=QX": "[(c!\"wepkey\", .str c!\"QX\")]", "--notksdevice": "[(c!\"notksdevice\", .bool true)]", "--noipv4": "[(c!\"noipv4\", .bool true)]", "--noipv6": "[(c!\"noipv6\", .bool true)]", "--ipv6=QX": "[(c!\"ipv6\", .str c!\"QX\")]", "--bootproto=ibft": "REFUSED", "--activate": "REFUSED", "--nodefroute": "REFUSED", "--wpakey=QX": "REFUSED", "--bondslaves=QX": "REFUSED", "--bondopts=QX": "REFUSED", "--vlanid=QX": "REFUSED", "--ipv6gateway=QX": "REFUSED", "--teamslaves=QX": "REFUSED", "--teamconfig=QX": "REFUSED", "--interfacename=QX": "REFUSED", "--bridgeslaves=QX": "REFUSED", "--bridgeopts=QX": "REFUSED", "--no-activate": "REFUSED", "--bindto=mac": "REFUSED"}}, "40": {"cmd": "network", "cls": "F9_Network.cls F8_NetworkData.cls", "vs": [8000, 9000, 10000, 11000, 12000, 13000, 7000], "base": "--device=b --bridgeslaves=e", "bi": 1, "lines": ["--bridgeopts=stp=6", "--bridgeopts=stp", "--bridgeslaves=a,b"], "ok": false}, "41": {"cmd": "network", "cls": "F9_Network.cls F8_NetworkData.cls", "vs": [8000, 9000, 10000, 11000, 12000, 13000, 7000], "base": "--bootproto=static --ip=i", "bi": 2, "lines": ["--netmask=QX", "--gateway=QX"], "ok": true, "kind": "L", "d": "[(c!\"lineno\", .int 7), (c!\"bootProto\", .str c!\"static\"), (c!\"dhcpclass\", .str c!\"\"), (c!\"device\", .str c!\"\"), (c!\"essid\", .str c!\"\"), (c!\"ethtool\", .str c!\"\"), (c!\"gateway\", .str c!\"\"), (c!\"hostname\", .str c!\"\"), (c!\"ip\", .str c!\"i\"), (c!\"mtu\", .str c!\"\"), (c!\"nameserver\", .str c!\"\"), (c!\"netmask\", .str c!\"\"), (c!\"nodns\", .bool false), (c!\"onboot\", .bool true), (c!\"wepkey\", .str c!\"\"), (c!\"notksdevice\", .bool false), (c!\"noipv4\", .bool false), (c!\"noipv6\", .bool false), (c!\"ipv6\", .str c!\"\")]", "bsets": "[]", "rows": {"--netmask=QX": "[(c!\"netmask\", .str c!\"QX\")]", "--gateway=QX": "[(c!\"gateway\", .str c!\"QX\")]"}}, "42": {"cmd": "network", "cls": "F9_Network.cls F8_NetworkData.cls", "vs": [8000, 9000, 10000, 11000, 12000, 13000, 7000], "base": "--device=t", "bi": 3, "lines": ["--teamslaves=a", "--bondslaves=a,b", "--vlanid=5"], "ok": true, "kind": "L", "d": "[(c!\"lineno\", .int 7), (c!\"bootProto\", .str c!\"dhcp\"), (c!\"dhcpclass\", .str c!\"\"), (c!\"device\", .str c!\"t\"), (c!\"essid\", .str c!\"\"), (c!\"ethtool\", .str c!\"\"), (c!\"gateway\", .str c!\"\"), (c!\"hostname\", .str c!\"\"), (c!\"ip\", .str c!\"\"), (c!\"mtu\", .str c!\"\"), (c!\"nameserver\", .str c!\"\"), (c!\"netmask\", .str c!\"\"), (c!\"nodns\", .bool false), (c!\"onboot\", .bool true), (c!\"wepkey\", .str c!\"\"), (c!\"notksdevice\", .bool false), (c!\"noipv4\", .bool false), (c!\"noipv6\", .bool false), (c!\"ipv6\", .str c!\"\")]", "bsets": "[]", "rows": {"--teamslaves=a": "REFUSED", "--bondslaves=a,b": "REFUSED", "--vlanid=5": "REFUSED"}}, "43": {"cmd": "nfs", "cls": "FC6_NFS.cls", "vs": [8000, 9000, 10000, 11000, 12000, 13000, 14000, 15000, 16000, 17000, 18000, 19000, 20000, 21000, 22000, 23000, 24000, 25000, 26000, 27000, 30000, 31000, 32000, 33000, 34000, 5000, 6000, 7000, 4000, 4100, 11100, 19100, 26100], "base": "--server=s --dir=d", "bi": 0, "lines": ["--server=QX", "--dir=QX", "--opts=QX"], "ok": true, "kind": "P", "d": "[(c!\"server\", .str c!\"s\"), (c!\"dir\", .str c!\"d\"), (c!\"opts\", .none)]", "bsets": "[(c!\"server\", .str c!\"s\"), (c!\"dir\", .str c!\"d\")]", "rows": {"--server=QX": "[(c!\"server\", .str c!\"QX\")]", "--dir=QX": "[(c!\"dir\", .str c!\"QX\")]", "--opts=QX": "[(c!\"opts\", .str c!\"QX\")]"}}, "44": {"cmd": "part", "cls": "F9_Partition.cls F9_PartData.cls", "vs": [8000, 7000], "base": "/x --size=1", "bi": 0, "lines": ["--active", "--asprimary", "--start=42", "--end=42", "--fstype=QX", "--type=QX", "--grow", "--maxsize=42", "--noformat", "--onbiosdisk=QX", "--ondisk=QX", "--ondrive=QX", "--onpart=QX", "--usepart=QX", "--recommended", "--size=42", "--fsoptions=QX", "--label=QX", "--bytes-per-inode=QX", "--fsprofile=QX", "--encrypted", "--passphrase=QX", "--start=QX", "--end=QX", "--escrowcert=QX", "--backuppassphrase", "--resize", "--hibernation", "--cipher=QX", "--mkfsoptions=QX", "--luks-version=QX", "--pbkdf=QX", "--pbkdf-memory=42", "--pbkdf-time=42", "--pbkdf-iterations=42", "--bytes-per-inode=42"], "ok": true, "kind": "L", "d": "[(c!\"lineno\", .int 7), (c!\"active\", .bool false), (c!\"primOnly\", .bool false), (c!\"end\", .int 0), (c!\"fstype\", .str c!\"\"), (c!\"grow\", .bool false), (c!\"maxSizeMB\", .int 0), (c!\"format\", .bool true), (c!\"onbiosdisk\", .str c!\"\"), (c!\"disk\", .str c!\"\"), (c!\"onPart\", .str c!\"\"), (c!\"recommended\", .bool false), (c!\"size\", .int 1), (c!\"start\", .int 0), (c!\"mountpoint\", .str c!\"/x\"), (c!\"fsopts\", .str c!\"\"), (c!\"label\", .str c!\"\"), (c!\"fsprofile\", .str c!\"\"), (c!\"encrypted\", .bool false), (c!\"passphrase\", .str c!\"\"), (c!\"mntpoint\", .list [c!\"/x\"])]", "bsets": "[]", "rows": {"--active": "[(c!\"active\", .bool true)]", "--asprimary": "[(c!\"primOnly\", .bool true)]", "--start=42": "[(c!\"start\", .int 42)]", "--end=42": "[(c!\"end\", .int 42)]", "--fstype=QX": "[(c!\"fstype\", .str c!\"QX\")]", "--type=QX": "[(c!\"fstype\", .str c!\"QX\")]", "--grow": "[(c!\"grow\", .bool true)]", "--maxsize=42": "[(c!\"maxSizeMB\", .int 42)]", "--noformat": "[(c!\"format\", .bool false)]", "--onbiosdisk=QX": "[(c!\"onbiosdisk\", .str c!\"QX\")]", "--ondisk=QX": "[(c!\"disk\", .str c!\"QX\")]", "--ondrive=QX": "[(c!\"disk\", .str c!\"QX\")]", "--onpart=QX": "[(c!\"onPart\", .str c!\"QX\")]", "--usepart=QX": "[(c!\"onPart\", .str c!\"QX\")]", "--recommended": "[(c!\"recommended\", .bool true)]", "--size=42": "[(c!\"size\", .int 42)]", "--fsoptions=QX": "[(c!\"fsopts\", .str c!\"QX\")]", "--label=QX": "[(c!\"label\", .str c!\"QX\")]", "--bytes-per-inode=QX": "[(c!\"bytes_per_inode\", .str c!\"QX\")]", "--fsprofile=QX": "[(c!\"fsprofile\", .str c!\"QX\")]", "--encrypted": "[(c!\"encrypted\", .bool true)]", "--passphrase=QX": "[(c!\"passphrase\", .str c!\"QX\")]", "--start=QX": "REFUSED", "--end=QX": "REFUSED", "--escrowcert=QX": "REFUSED", "--backuppassphrase": "REFUSED", "--resize": "REFUSED", "--hibernation": "REFUSED", "--cipher=QX": "REFUSED", "--mkfsoptions=QX": "REFUSED", "--luks-version=QX": "REFUSED", "--pbkdf=QX": "REFUSED", "--pbkdf-memory=42": "REFUSED", "--pbkdf-time=42": "REFUSED", "--pbkdf-iterations=42": "REFUSED", "--bytes-per-inode=42": "[(c!\"bytes_per_inode\", .str c!\"42\")]"}}, "45": {"cmd": "part", "cls": "F9_Partition.cls F9_PartData.cls", "vs": [8000, 7000], "base": "/x --onpart=sda1 --size=1", "bi": 1, "lines": ["--resize", "--noformat"], "ok": true, "kind": "L", "d": "[(c!\"lineno\", .int 7), (c!\"active\", .bool false), (c!\"primOnly\", .bool false), (c!\"end\", .int 0), (c!\"fstype\", .str c!\"\"), (c!\"grow\", .bool false), (c!\"maxSizeMB\", .int 0), (c!\"format\", .bool true), (c!\"onbiosdisk\", .str c!\"\"), (c!\"disk\", .str c!\"\"), (c!\"onPart\", .str c!\"sda1\"), (c!\"recommended\", .bool false), (c!\"size\", .int 1), (c!\"start\", .int 0), (c!\"mountpoint\", .str c!\"/x\"), (c!\"fsopts\", .str c!\"\"), (c!\"label\", .str c!\"\"), (c!\"fsprofile\", .str c!\"\"), (c!\"encrypted\", .bool false), (c!\"passphrase\", .str c!\"\"), (c!\"mntpoint\", .list [c!\"/x\"])]", "bsets": "[]", "rows": {"--resize": "REFUSED", "--noformat": "[(c!\"format\", .bool false)]"}}, "46": {"cmd": "partition", "cls": "F9_Partition.cls F9_PartData.cls", "vs": [8000, 7000], "base": "/x --size=1", "bi": 0, "lines": ["--active", "--asprimary", "--start=42", "--end=42", "--fstype=QX", "--type=QX", "--grow", "--maxsize=42", "--noformat", "--onbiosdisk=QX", "--ondisk=QX", "--ondrive=QX", "--onpart=QX", "--usepart=QX", "--recommended", "--size=42", "--fsoptions=QX", "--label=QX", "--bytes-per-inode=QX", "--fsprofile=QX", "--encrypted", "--passphrase=QX", "--start=QX", "--end=QX", "--escrowcert=QX", "--backuppassphrase", "--resize", "--hibernation", "--cipher=QX", "--mkfsoptions=QX", "--luks-version=QX", "--pbkdf=QX", "--pbkdf-memory=42", "--pbkdf-time=42", "--pbkdf-iterations=42", "--bytes-per-inode=42"], "ok": true, "kind": "L", "d": "[(c!\"lineno\", .int 7), (c!\"active\", .bool false), (c!\"primOnly\", .bool false), (c!\"end\", .int 0), (c!\"fstype\", .str c!\"\"), (c!\"grow\", .bool false), (c!\"maxSizeMB\", .int 0), (c!\"format\", .bool true), (c!\"onbiosdisk\", .str c!\"\"), (c!\"disk\", .str c!\"\"), (c!\"onPart\", .str c!\"\"), (c!\"recommended\", .bool false), (c!\"size\", .int 1), (c!\"start\", .int 0), (c!\"mountpoint\", .str c!\"/x\"), (c!\"fsopts\", .str c!\"\"), (c!\"label\", .str c!\"\"), (c!\"fsprofile\", .str c!\"\"), (c!\"encrypted\", .bool false), (c!\"passphrase\", .str c!\"\"), (c!\"mntpoint\", .list [c!\"/x\"])]", "bsets": "[]", "rows": {"--active": "[(c!\"active\", .bool true)]", "--asprimary": "[(c!\"primOnly\", .bool true)]", "--start=42": "[(c!\"start\", .int 42)]", "--end=42": "[(c!\"end\", .int 42)]", "--fstype=QX": "[(c!\"fstype\", .str c!\"QX\")]", "--type=QX": "[(c!\"fstype\", .str c!\"QX\")]", "--grow": "[(c!\"grow\", .bool true)]", "--maxsize=42": "[(c!\"maxSizeMB\", .int 42)]", "--noformat": "[(c!\"format\", .bool false)]", "--onbiosdisk=QX": "[(c!\"onbiosdisk\", .str c!\"QX\")]", "--ondisk=QX": "[(c!\"disk\", .str c!\"QX\")]", "--ondrive=QX": "[(c!\"disk\", .str c!\"QX\")]", "--onpart=QX": "[(c!\"onPart\", .str c!\"QX\")]", "--usepart=QX": "[(c!\"onPart\", .str c!\"QX\")]", "--recommended": "[(c!\"recommended\", .bool true)]", "--size=42": "[(c!\"size\", .int 42)]", "--fsoptions=QX": "[(c!\"fsopts\", .str c!\"QX\")]", "--label=QX": "[(c!\"label\", .str c!\"QX\")]", "--bytes-per-inode=QX": "[(c!\"bytes_per_inode\", .str c!\"QX\")]", "--fsprofile=QX": "[(c!\"fsprofile\", .str c!\"QX\")]", "--encrypted": "[(c!\"encrypted\", .bool true)]", "--passphrase=QX": "[(c!\"passphrase\", .str c!\"QX\")]", "--start=QX": "REFUSED", "--end=QX": "REFUSED", "--escrowcert=QX": "REFUSED", "--backuppassphrase": "REFUSED", "--resize": "REFUSED", "--hibernation": "REFUSED", "--cipher=QX": "REFUSED", "--mkfsoptions=QX": "REFUSED", "--luks-version=QX": "REFUSED", "--pbkdf=QX": "REFUSED", "--pbkdf-memory=42": "REFUSED", "--pbkdf-time=42": "REFUSED", "--pbkdf-iterations=42": "REFUSED", "--bytes-per-inode=42": "[(c!\"bytes_per_inode\", .str c!\"42\")]"}}, "47": {"cmd": "partition", "cls": "F9_Partition.cls F9_PartData.cls", "vs": [8000, 7000], "base": "/x --onpart=sda1 --size=1", "bi": 1, "lines": ["--resize", "--noformat"], "ok": true, "kind": "L", "d": "[(c!\"lineno\", .int 7), (c!\"active\", .bool false), (c!\"primOnly\", .bool false), (c!\"end\", .int 0), (c!\"fstype\", .str c!\"\"), (c!\"grow\", .bool false), (c!\"maxSizeMB\", .int 0), (c!\"format\", .bool true), (c!\"onbiosdisk\", .str c!\"\"), (c!\"disk\", .str c!\"\"), (c!\"onPart\", .str c!\"sda1\"), (c!\"recommended\", .bool false), (c!\"size\", .int 1), (c!\"start\", .int 0), (c!\"mountpoint\", .str c!\"/x\"), (c!\"fsopts\", .str c!\"\"), (c!\"label\", .str c!\"\"), (c!\"fsprofile\", .str c!\"\"), (c!\"encrypted\", .bool false), (c!\"passphrase\", .str c!\"\"), (c!\"mntpoint\", .list [c!\"/x\"])]", "bsets": "[]", "rows": {"--resize": "REFUSED", "--noformat": "[(c!\"format\", .bool false)]"}}, "48": {"cmd": "poweroff", "cls": "FC6_Reboot.cls", "vs": [8000, 9000, 10000, 11000, 12000, 13000, 14000, 15000, 5000, 6000, 7000, 4000, 4100, 11100], "base": "", "bi": 0, "lines": ["--eject", "--kexec"], "ok": true, "kind": "P", "d": "[(c!\"action\", .int 2), (c!\"eject\", .bool false)]", "bsets": "[(c!\"action\", .int 2)]", "rows": {"--eject": "[(c!\"eject\", .bool true)]", "--kexec": "REFUSED"}}, "49": {"cmd": "raid", "cls": "F9_Raid.cls F9_RaidData.cls", "vs": [8000, 9000, 7000], "base": "/x --device=1 --level=RAID1 raid.1 raid.2", "bi": 0, "lines": ["--device=QX", "--fstype=QX", "--level=RAID0", "--level=0", "--level=RAID1", "--level=1", "--level=RAID5", "--level=5", "--level=RAID6", "--level=6", "--level=RAID10", "--level=10", "--noformat", "--spares=42", "--useexisting", "--fsoptions=QX", "--bytes-per-inode=QX", "--fsprofile=QX", "--encrypted", "--passphrase=QX", "--escrowcert=QX", "--backuppassphrase", "--level=RAID4", "--level=4", "--label=QX", "--cipher=QX", "--mkfsoptions=QX", "--chunksize=42", "--luks-version=QX", "--pbkdf=QX", "--pbkdf-memory=42", "--pbkdf-time=42", "--pbkdf-iterations=42", "--bytes-per-inode=42"], "ok": true, "kind": "L", "d": "[(c!\"lineno\", .int 7), (c!\"device\", .int 1), (c!\"fstype\", .str c!\"\"), (c!\"level\", .str c!\"RAID1\"), (c!\"format\", .bool true), (c!\"spares\", .int 0), (c!\"preexist\", .bool false), (c!\"mountpoint\", .str c!\"/x\"), (c!\"members\", .list [c!\"raid.1\", c!\"raid.2\"]), (c!\"fsopts\", .str c!\"\"), (c!\"fsprofile\", .str c!\"\"), (c!\"encrypted\", .bool false), (c!\"passphrase\", .str c!\"\"), (c!\"mntpoint\", .list [c!\"/x\"]), (c!\"partitions\", .list [c!\"raid.1\", c!\"raid.2\"])]", "bsets": "[]", "rows": {"--device=QX": "REFUSED", "--fstype=QX": "[(c!\"fstype\", .str c!\"QX\")]", "--level=RAID0": "[(c!\"level\", .str c!\"RAID0\")]", "--level=0": "[(c!\"level\", .str c!\"RAID0\")]", "--level=RAID1": "[]", "--level=1": "[]", "--level=RAID5": "[(c!\"level\", .str c!\"RAID5\")]", "--level=5": "[(c!\"level\", .str c!\"RAID5\")]", "--level=RAID6": "[(c!\"level\", .str c!\"RAID6\")]", "--level=6": "[(c!\"level\", .str c!\"RAID6\")]", "--level=RAID10": "[(c!\"level\", .str c!\"RAID10\")]", "--level=10": "[(c!\"level\", .str c!\"RAID10\")]", "--noformat": "REFUSED", "--spares=42": "[(c!\"spares\", .int 42)]", "--useexisting": "REFUSED", "--fsoptions=QX": "[(c!\"fsopts\", .str c!\"QX\")]", "--bytes-per-inode=QX": "[(c!\"bytes_per_inode\", .str c!\"QX\")]", "--fsprofile=QX": "[(c!\"fsprofile\", .str c!\"QX\")]", "--encrypted": "[(c!\"encrypted\", .bool true)]", "--passphrase=QX": "[(c!\"passphrase\", .str c!\"QX\")]", "--escrowcert=QX": "REFUSED", "--backuppassphrase": "REFUSED", "--level=RAID4": "REFUSED", "--level=4": "REFUSED", "--label=QX": "REFUSED", "--cipher=QX": "REFUSED", "--mkfsoptions=QX": "REFUSED", "--chunksize=42": "REFUSED", "--luks-version=QX": "REFUSED", "--pbkdf=QX": "REFUSED", "--pbkdf-memory=42": "REFUSED", "--pbkdf-time=42": "REFUSED", "--pbkdf-iterations=42": "REFUSED", "--bytes-per-inode=42": "[(c!\"bytes_per_inode\", .str c!\"42\")]"}}, "50": {"cmd": "raid", "cls": "F9_Raid.cls F9_RaidData.cls", "vs": [8000, 9000, 7000], "base": "/x --device=1 --noformat", "bi": 1, "lines": ["--fstype=ext4", "--label=QX"], "ok": true, "kind": "L", "d": "[(c!\"lineno\", .int 7), (c!\"device\", .int 1), (c!\"fstype\", .str c!\"\"), (c!\"level\", .str c!\"\"), (c!\"format\", .bool false), (c!\"spares\", .int 0), (c!\"preexist\", .bool true), (c!\"mountpoint\", .str c!\"/x\"), (c!\"members\", .list []), (c!\"fsopts\", .str c!\"\"), (c!\"fsprofile\", .str c!\"\"), (c!\"encrypted\", .bool false), (c!\"passphrase\", .str c!\"\"), (c!\"mntpoint\", .list [c!\"/x\"]), (c!\"partitions\", .list [])]", "bsets": "[]", "rows": {"--fstype=ext4": "[(c!\"fstype\", .str c!\"ext4\")]", "--label=QX": "REFUSED"}}, "51": {"cmd": "raid", "cls": "F9_Raid.cls F9_RaidData.cls", "vs": [8000, 9000, 7000], "base": "/x --device=1 --useexisting", "bi": 2, "lines": ["--fstype=ext4", "--label=QX"], "ok": true, "kind": "L", "d": "[(c!\"lineno\", .int 7), (c!\"device\", .int 1), (c!\"fstype\", .str c!\"\"), (c!\"level\", .str c!\"\"), (c!\"format\", .bool true), (c!\"spares\", .int 0), (c!\"preexist\", .bool true), (c!\"mountpoint\", .str c!\"/x\"), (c!\"members\", .list []), (c!\"fsopts\", .str c!\"\"), (c!\"fsprofile\", .str c!\"\"), (c!\"encrypted\", .bool false), (c!\"passphrase\", .str c!\"\"), (c!\"mntpoint\", .list [c!\"/x\"]), (c!\"partitions\", .list [])]", "bsets": "[]", "rows": {"--fstype=ext4": "[(c!\"fstype\", .str c!\"ext4\")]", "--label=QX": "REFUSED"}}, "52": {"cmd": "raid", "cls": "F9_Raid.cls F9_RaidData.cls", "vs": [8000, 9000, 7000], "base": "/x --device=1 --level=RAID1 raid.1 raid.2 raid.3", "bi": 3, "lines": ["--device=md7", "--device=data", "--level=0", "--level=RAID5", "--level=raid6", "--level=10", "--level=linear", "--spares=1", "--spares=2"], "ok": true, "kind": "L", "d": "[(c!\"lineno\", .int 7), (c!\"device\", .int 1), (c!\"fstype\", .str c!\"\"), (c!\"level\", .str c!\"RAID1\"), (c!\"format\", .bool true), (c!\"spares\", .int 0), (c!\"preexist\", .bool false), (c!\"mountpoint\", .str c!\"/x\"), (c!\"members\", .list [c!\"raid.1\", c!\"raid.2\", c!\"raid.3\"]), (c!\"fsopts\", .str c!\"\"), (c!\"fsprofile\", .str c!\"\"), (c!\"encrypted\", .bool false), (c!\"passphrase\", .str c!\"\"), (c!\"mntpoint\", .list [c!\"/x\"]), (c!\"partitions\", .list [c!\"raid.1\", c!\"raid.2\", c!\"raid.3\"])]", "bsets": "[]", "rows": {"--device=md7": "[(c!\"device\", .int 7)]", "--device=data": "REFUSED", "--level=0": "[(c!\"level\", .str c!\"RAID0\")]", "--level=RAID5": "[(c!\"level\", .str c!\"RAID5\")]", "--level=raid6": "[(c!\"level\", .str c!\"RAID6\")]", "--level=10": "[(c!\"level\", .str c!\"RAID10\")]", "--level=linear": "REFUSED", "--spares=1": "[(c!\"spares\", .int 1)]", "--spares=2": "[(c!\"spares\", .int 2)]"}}, "53": {"cmd": "reboot", "cls": "FC6_Reboot.cls", "vs": [8000, 9000, 10000, 11000, 12000, 13000, 14000, 15000, 5000, 6000, 7000, 4000, 4100, 11100], "base": "", "bi": 0, "lines": ["--eject", "--kexec"], "ok": true, "kind": "P", "d": "[(c!\"action\", .int 1), (c!\"eject\", .bool false)]", "bsets": "[(c!\"action\", .int 1)]", "rows": {"--eject": "[(c!\"eject\", .bool true)]", "--kexec": "REFUSED"}}, "54": {"cmd": "repo", "cls": "F8_Repo.cls F8_RepoData.cls", "vs": [8000, 6000, 7000], "base": "--name=r --baseurl=b", "bi": 0, "lines": ["--name=QX", "--baseurl=QX", "--mirrorlist=QX", "--cost=42", "--excludepkgs=QX", "--includepkgs=QX", "--ignoregroups=yes", "--ignoregroups=off", "--proxy=QX", "--noverifyssl", "--install", "--metalink=QX", "--sslcacert=QX", "--sslclientcert=QX", "--sslclientkey=QX"], "ok": true, "kind": "L", "d": "[(c!\"lineno\", .int 7), (c!\"baseurl\", .str c!\"b\"), (c!\"mirrorlist\", .none), (c!\"name\", .str c!\"r\"), (c!\"cost\", .none), (c!\"includepkgs\", .list []), (c!\"excludepkgs\", .list [])]", "bsets": "[]", "rows": {"--name=QX": "[(c!\"name\", .str c!\"QX\")]", "--baseurl=QX": "[(c!\"baseurl\", .str c!\"QX\")]", "--mirrorlist=QX": "REFUSED", "--cost=42": "[(c!\"cost\", .int 42)]", "--excludepkgs=QX": "[(c!\"excludepkgs\", .list [c!\"QX\"])]", "--includepkgs=QX": "[(c!\"includepkgs\", .list [c!\"QX\"])]", "--ignoregroups=yes": "REFUSED", "--ignoregroups=off": "REFUSED", "--proxy=QX": "REFUSED", "--noverifyssl": "REFUSED", "--install": "REFUSED", "--metalink=QX": "REFUSED", "--sslcacert=QX": "REFUSED", "--sslclientcert=QX": "REFUSED", "--sslclientkey=QX": "REFUSED"}}, "55": {"cmd": "repo", "cls": "F8_Repo.cls F8_RepoData.cls", "vs": [8000, 6000, 7000], "base": "--name=r --mirrorlist=m", "bi": 1, "lines": ["--baseurl=QX", "--metalink=QX"], "ok": true, "kind": "L", "d": "[(c!\"lineno\", .int 7), (c!\"baseurl\", .str c!\"\"), (c!\"mirrorlist\", .str c!\"m\"), (c!\"name\", .str c!\"r\"), (c!\"cost\", .none), (c!\"includepkgs\", .list []), (c!\"excludepkgs\", .list [])]", "bsets": "[]", "rows": {"--baseurl=QX": "REFUSED", "--metalink=QX": "REFUSED"}}, "56": {"cmd": "repo", "cls": "F8_Repo.cls F8_RepoData.cls", "vs": [8000, 6000, 7000], "base": "--name=r --metalink=m", "bi": 2, "lines": ["--mirrorlist=QX"], "ok": false}, "57": {"cmd": "rescue", "cls": "F10_Rescue.cls", "vs": [8000, 9000, 10000, 11000, 12000, 13000, 14000, 15000, 16000, 17000, 18000, 19000, 20000, 21000, 22000, 23000, 24000, 25000, 26000, 27000, 30000, 31000, 32000, 33000, 34000, 11100, 19100, 26100], "base": "", "bi": 0, "lines": ["--nomount", "--romount"], "ok": true, "kind": "P", "d": "[(c!\"rescue\", .bool true), (c!\"nomount\", .bool false), (c!\"romount\", .bool false)]", "bsets": "[(c!\"rescue\", .bool true)]", "rows": {"--nomount": "[(c!\"nomount\", .bool true)]", "--romount": "[(c!\"romount\", .bool true)]"}}, "58": {"cmd": "rootpw", "cls": "F8_RootPw.cls", "vs": [8000, 9000, 10000, 11000, 12000, 13000, 14000, 15000, 6000, 7000, 11100], "base": "P", "bi": 0, "lines": ["--iscrypted", "--lock", "--plaintext"], "ok": true, "kind": "P", "d": "[(c!\"isCrypted\", .bool false), (c!\"password\", .str c!\"P\"), (c!\"lock\", .bool false)]", "bsets": "[(c!\"password\", .str c!\"P\")]", "rows": {"--iscrypted": "[(c!\"isCrypted\", .bool true)]", "--lock": "[(c!\"lock\", .bool true)]", "--plaintext": "[]"}}, "59": {"cmd": "rootpw", "cls": "F8_RootPw.cls", "vs": [8000, 9000, 10000, 11000, 12000, 13000, 14000, 15000, 6000, 7000, 11100], "base": "--lock", "bi": 1, "lines": ["--iscrypted", "--plaintext"], "ok": false}, "60": {"cmd": "selinux", "cls": "FC3_SELinux.cls", "vs": [8000, 9000, 10000, 11000, 12000, 13000, 14000, 15000, 16000, 17000, 18000, 19000, 20000, 21000, 22000, 23000, 24000, 25000, 26000, 27000, 30000, 31000, 32000, 33000, 34000, 5000, 6000, 7000, 1000, 2000, 3000, 4000, 1100, 4100, 11100, 19100, 26100], "base": "", "bi": 0, "lines": ["--disabled", "--enforcing", "--permissive"], "ok": true, "kind": "P", "d": "[(c!\"selinux\", .none)]", "bsets": "[]", "rows": {"--disabled": "[(c!\"selinux\", .int 0)]", "--enforcing": "[(c!\"selinux\", .int 1)]", "--permissive": "[(c!\"selinux\", .int 2)]"}}, "61": {"cmd": "services", "cls": "FC6_Services.cls", "vs": [8000, 9000, 10000, 11000, 12000, 13000, 14000, 15000, 16000, 17000, 18000, 19000, 20000, 21000, 22000, 23000, 24000, 25000, 26000, 27000, 30000, 31000, 32000, 33000, 34000, 5000, 6000, 7000, 4000, 4100, 11100, 19100, 26100], "base": "--enabled=a", "bi": 0, "lines": ["--disabled=QX"], "ok": true, "kind": "P", "d": "[(c!\"disabled\", .list []), (c!\"enabled\", .list [c!\"a\"])]", "bsets": "[(c!\"enabled\", .list [c!\"a\"])]", "rows": {"--disabled=QX": "[(c!\"disabled\", .list [c!\"QX\"])]"}}, "62": {"cmd": "services", "cls": "FC6_Services.cls", "vs": [8000, 9000, 10000, 11000, 12000, 13000, 14000, 15000, 16000, 17000, 18000, 19000, 20000, 21000, 22000, 23000, 24000, 25000, 26000, 27000, 30000, 31000, 32000, 33000, 34000, 5000, 6000, 7000, 4000, 4100, 11100, 19100, 26100], "base": "--disabled=a", "bi": 1, "lines": ["--enabled=QX"], "ok": true, "kind": "P", "d": "[(c!\"disabled\", .list [c!\"a\"]), (c!\"enabled\", .list [])]", "bsets": "[(c!\"disabled\", .list [c!\"a\"])]", "rows": {"--enabled=QX": "[(c!\"enabled\", .list [c!\"QX\"])]"}}, "63": {"cmd": "shutdown", "cls": "FC6_Reboot.cls", "vs": [8000, 9000, 10000, 11000, 12000, 13000, 14000, 15000, 5000, 6000, 7000, 4000, 4100, 11100], "base": "", "bi": 0, "lines": ["--eject", "--kexec"], "ok": true, "kind": "P", "d": "[(c!\"action\", .int 2), (c!\"eject\", .bool false)]", "bsets": "[(c!\"action\", .int 2)]", "rows": {"--eject": "[(c!\"eject\", .bool true)]", "--kexec": "REFUSED"}}, "64": {"cmd": "skipx", "cls": "FC3_SkipX.cls", "vs": [8000, 9000, 10000, 11000, 12000, 13000, 14000, 15000, 16000, 17000, 18000, 19000, 20000, 21000, 22000, 23000, 24000, 25000, 26000, 27000, 30000, 31000, 32000, 33000, 34000, 5000, 6000, 7000, 1000, 2000, 3000, 4000, 900, 1100, 4100, 11100, 19100, 26100], "base": "", "bi": 0, "lines": ["x", "--x"], "ok": true, "kind": "P", "d": "[(c!\"skipx\", .bool true)]", "bsets": "[(c!\"skipx\", .bool true)]", "rows": {"x": "REFUSED", "--x": "REFUSED"}}, "65": {"cmd": "text", "cls": "FC3_DisplayMode.cls", "vs": [8000, 9000, 10000, 11000, 12000, 13000, 14000, 15000, 16000, 17000, 18000, 19000, 20000, 21000, 22000, 23000, 5000, 6000, 7000, 1000, 2000, 3000, 4000, 900, 1100, 4100, 11100, 19100], "base": "", "bi": 0, "lines": ["--non-interactive"], "ok": true, "kind": "P", "d": "[(c!\"displayMode\", .int 2)]", "bsets": "[(c!\"displayMode\", .int 2)]", "rows": {"--non-interactive": "REFUSED"}}, "66": {"cmd": "timezone", "cls": "FC6_Timezone.cls", "vs": [8000, 9000, 10000, 11000, 12000, 13000, 14000, 15000, 5000, 6000, 7000, 4000, 4100, 11100], "base": "T", "bi": 0, "lines": ["--utc", "--isUtc", "--nontp", "--ntpservers=QX"], "ok": true, "kind": "P", "d": "[(c!\"isUtc\", .bool false), (c!\"timezone\", .str c!\"T\")]", "bsets": "[(c!\"timezone\", .str c!\"T\")]", "rows": {"--utc": "[(c!\"isUtc\", .bool true)]", "--isUtc": "[(c!\"isUtc\", .bool true)]", "--nontp": "REFUSED", "--ntpservers=QX": "REFUSED"}}, "67": {"cmd": "timezone", "cls": "FC6_Timezone.cls", "vs": [8000, 9000, 10000, 11000, 12000, 13000, 14000, 15000, 5000, 6000, 7000, 4000, 4100, 11100], "base": "--utc T", "bi": 1, "lines": ["--ntpservers=QX", "--nontp"], "ok": true, "kind": "P", "d": "[(c!\"isUtc\", .bool true), (c!\"timezone\", .str c!\"T\")]", "bsets": "[(c!\"isUtc\", .bool true), (c!\"timezone\", .str c!\"T\")]", "rows": {"--ntpservers=QX": "REFUSED", "--nontp": "REFUSED"}}, "68": {"cmd": "updates", "cls": "F7_Updates.cls", "vs": [8000, 9000, 10000, 11000, 12000, 13000, 14000, 15000, 16000, 17000, 18000, 19000, 20000, 21000, 22000, 23000, 24000, 25000, 26000, 27000, 30000, 31000, 32000, 33000, 5000, 6000, 7000, 11100, 19100, 26100], "base": "", "bi": 0, "lines": [], "ok": true, "kind": "P", "d": "[(c!\"url\", .str c!\"floppy\")]", "bsets": "[(c!\"url\", .str c!\"floppy\")]", "rows": {}}, "69": {"cmd": "updates", "cls": "F7_Updates.cls", "vs": [8000, 9000, 10000, 11000, 12000, 13000, 14000, 15000, 16000, 17000, 18000, 19000, 20000, 21000, 22000, 23000, 24000, 25000, 26000, 27000, 30000, 31000, 32000, 33000, 5000, 6000, 7000, 11100, 19100, 26100], "base": "U", "bi": 1, "lines": [], "ok": true, "kind": "P", "d": "[(c!\"url\", .str c!\"U\")]", "bsets": "[(c!\"url\", .str c!\"U\")]", "rows": {}}, "70": {"cmd": "upgrade", "cls": "FC3_Upgrade.cls", "vs": [8000, 5000, 6000, 7000, 1000, 2000, 3000, 4000, 900, 1100, 4100], "base": "", "bi": 0, "lines": ["--root-device=QX"], "ok": true, "kind": "P", "d": "[(c!\"upgrade\", .bool true)]", "bsets": "[(c!\"upgrade\", .bool true)]", "rows": {"--root-device=QX": "REFUSED"}}, "71": {"cmd": "url", "cls": "FC3_Url.cls", "vs": [8000, 9000, 10000, 5000, 6000, 7000, 1000, 2000, 3000, 4000, 900, 1100, 4100], "base": "--url=U", "bi": 0, "lines": ["--url=QX", "--proxy=QX", "--noverifyssl", "--mirrorlist=QX", "--metalink=QX", "--sslcacert=QX", "--sslclientcert=QX", "--sslclientkey=QX"], "ok": true, "kind": "P", "d": "[(c!\"url\", .str c!\"U\")]", "bsets": "[(c!\"url\", .str c!\"U\")]", "rows": {"--url=QX": "[(c!\"url\", .str c!\"QX\")]", "--proxy=QX": "REFUSED", "--noverifyssl": "REFUSED", "--mirrorlist=QX": "REFUSED", "--metalink=QX": "REFUSED", "--sslcacert=QX": "REFUSED", "--sslclientcert=QX": "REFUSED", "--sslclientkey=QX": "REFUSED"}}, "72": {"cmd": "url", "cls": "FC3_Url.cls", "vs": [8000, 9000, 10000, 5000, 6000, 7000, 1000, 2000, 3000, 4000, 900, 1100, 4100], "base": "--mirrorlist=M", "bi": 1, "lines": ["--proxy=QX", "--metalink=QX", "--url=QX"], "ok": false}, "73": {"cmd": "url", "cls": "FC3_Url.cls", "vs": [8000, 9000, 10000, 5000, 6000, 7000, 1000, 2000, 3000, 4000, 900, 1100, 4100], "base": "--metalink=M", "bi": 2, "lines": ["--mirrorlist=QX"], "ok": false}, "74": {"cmd": "user", "cls": "F8_User.cls F8_UserData.cls", "vs": [8000, 9000, 6000, 7000], "base": "--name=u", "bi": 0, "lines": ["--groups=QX", "--homedir=QX", "--iscrypted", "--name=QX", "--password=QX", "--shell=QX", "--uid=42", "--lock", "--plaintext", "--gecos=QX", "--gid=42"], "ok": true, "kind": "L", "d": "[(c!\"lineno\", .int 7), (c!\"groups\", .list []), (c!\"homedir\", .str c!\"\"), (c!\"isCrypted\", .bool false), (c!\"name\", .str c!\"u\"), (c!\"password\", .str c!\"\"), (c!\"shell\", .str c!\"\"), (c!\"uid\", .none), (c!\"lock\", .bool false)]", "bsets": "[]", "rows": {"--groups=QX": "[(c!\"groups\", .list [c!\"QX\"])]", "--homedir=QX": "[(c!\"homedir\", .str c!\"QX\")]", "--iscrypted": "[(c!\"isCrypted\", .bool true)]", "--name=QX": "[(c!\"name\", .str c!\"QX\")]", "--password=QX": "[(c!\"password\", .str c!\"QX\")]", "--shell=QX": "[(c!\"shell\", .str c!\"QX\")]", "--uid=42": "[(c!\"uid\", .int 42)]", "--lock": "[(c!\"lock\", .bool true)]", "--plaintext": "[]", "--gecos=QX": "REFUSED", "--gid=42": "REFUSED"}}, "75": {"cmd": "vnc", "cls": "F9_Vnc.cls", "vs": [8000, 9000, 10000, 11000, 12000, 13000, 14000, 15000, 16000, 17000, 18000, 19000, 20000, 21000, 22000, 23000, 24000, 25000, 26000, 27000, 30000, 31000, 32000, 33000, 34000, 7000, 11100, 19100, 26100], "base": "", "bi": 0, "lines": ["--password=QX", "--host=QX", "--port=QX", "--connect=QX"], "ok": true, "kind": "P", "d": "[(c!\"enabled\", .bool true), (c!\"password\", .str c!\"\"), (c!\"host\", .str c!\"\"), (c!\"port\", .str c!\"\")]", "bsets": "[(c!\"enabled\", .bool true)]", "rows": {"--password=QX": "[(c!\"password\", .str c!\"QX\")]", "--host=QX": "[(c!\"host\", .str c!\"QX\")]", "--port=QX": "[(c!\"port\", .str c!\"QX\")]", "--connect=QX": "REFUSED"}}, "76": {"cmd": "volgroup", "cls": "FC3_VolGroup.cls FC3_VolGroupData.cls", "vs": [8000, 9000, 10000, 11000, 12000, 13000, 5000, 6000, 7000, 1000, 2000, 3000, 4000, 900, 1100, 4100], "base": "g pv.1", "bi": 0, "lines": ["--noformat", "--pesize=42", "--useexisting", "--reserved-space=42", "--reserved-percent=42"], "ok": true, "kind": "L", "d": "[(c!\"lineno\", .int 7), (c!\"format\", .bool true), (c!\"pesize\", .int 32768), (c!\"preexist\", .bool false), (c!\"vgname\", .str c!\"g\"), (c!\"physvols\", .list [c!\"pv.1\"]), (c!\"name\", .list [c!\"g\"]), (c!\"partitions\", .list [c!\"pv.1\"])]", "bsets": "[]", "rows": {"--noformat": "REFUSED", "--pesize=42": "[(c!\"pesize\", .int 42)]", "--useexisting": "REFUSED", "--reserved-space=42": "[(c!\"physvols\", .list [c!\"--reserved-space=42\"]), (c!\"name\", .list [c!\"g\", c!\"pv.1\"]), (c!\"partitions\", .list [c!\"--reserved-space=42\"])]", "--reserved-percent=42": "[(c!\"physvols\", .list [c!\"--reserved-percent=42\"]), (c!\"name\", .list [c!\"g\", c!\"pv.1\"]), (c!\"partitions\", .list [c!\"--reserved-percent=42\"])]"}}, "77": {"cmd": "volgroup", "cls": "FC3_VolGroup.cls FC3_VolGroupData.cls", "vs": [8000, 9000, 10000, 11000, 12000, 13000, 5000, 6000, 7000, 1000, 2000, 3000, 4000, 900, 1100, 4100], "base": "g --noformat", "bi": 1, "lines": [], "ok": true, "kind": "L", "d": "[(c!\"lineno\", .int 7), (c!\"format\", .bool false), (c!\"pesize\", .int 32768), (c!\"preexist\", .bool true), (c!\"vgname\", .str c!\"g\"), (c!\"physvols\", .list []), (c!\"name\", .list [c!\"g\"]), (c!\"partitions\", .list [])]", "bsets": "[]", "rows": {}}, "78": {"cmd": "volgroup", "cls": "FC3_VolGroup.cls FC3_VolGroupData.cls", "vs": [8000, 9000, 10000, 11000, 12000, 13000, 5000, 6000, 7000, 1000, 2000, 3000, 4000, 900, 1100, 4100], "base": "g --useexisting", "bi": 2, "lines": ["--noformat"], "ok": true, "kind": "L", "d": "[(c!\"lineno\", .int 7), (c!\"format\", .bool true), (c!\"pesize\", .int 32768), (c!\"preexist\", .bool true), (c!\"vgname\", .str c!\"g\"), (c!\"physvols\", .list []), (c!\"name\", .list [c!\"g\"]), (c!\"partitions\", .list [])]", "bsets": "[]", "rows": {"--noformat": "[(c!\"format\", .bool false)]"}}, "79": {"cmd": "xconfig", "cls": "F10_XConfig.cls", "vs": [8000, 9000, 10000, 11000, 11100], "base": "", "bi": 0, "lines": ["--defaultdesktop=QX", "--startxonboot", "--driver=QX", "--depth=QX", "--resolution=QX", "--videoram=QX", "--depth=42", "--card=QX", "--hsync=QX", "--monitor=QX", "--noprobe=QX", "--vsync=QX", "--noprobe", "--server=QX"], "ok": true, "kind": "P", "d": "[(c!\"defaultdesktop\", .str c!\"\"), (c!\"depth\", .int 0), (c!\"startX\", .bool false)]", "bsets": "[]", "rows": {"--defaultdesktop=QX": "[(c!\"defaultdesktop\", .str c!\"QX\")]", "--startxonboot": "[(c!\"startX\", .bool true)]", "--driver=QX": "[(c!\"driver\", .str c!\"QX\")]", "--depth=QX": "[(c!\"depth\", .str c!\"QX\")]", "--resolution=QX": "[(c!\"resolution\", .str c!\"QX\")]", "--videoram=QX": "[(c!\"videoram\", .str c!\"QX\")]", "--depth=42": "[(c!\"depth\", .str c!\"42\")]", "--card=QX": "REFUSED", "--hsync=QX": "REFUSED", "--monitor=QX": "REFUSED", "--noprobe=QX": "REFUSED", "--vsync=QX": "REFUSED", "--noprobe": "REFUSED", "--server=QX": "REFUSED"}}, "80": {"cmd": "zerombr", "cls": "F9_ZeroMbr.cls", "vs": [8000, 9000, 10000, 11000, 12000, 13000, 14000, 15000, 16000, 17000, 18000, 19000, 20000, 21000, 22000, 23000, 24000, 25000, 26000, 27000, 30000, 31000, 32000, 33000, 34000, 7000, 11100, 19100, 26100], "base": "", "bi": 0, "lines": ["x", "yes"], "ok": true, "kind": "P", "d": "[(c!\"zerombr\", .bool true)]", "bsets": "[(c!\"zerombr\", .bool true)]", "rows": {"x": "REFUSED", "yes": "REFUSED"}}, "81": {"cmd": "zfcp", "cls": "FC3_ZFCP.cls FC3_ZFCPData.cls", "vs": [8000, 9000, 5000, 6000, 7000, 1000, 2000, 3000, 4000, 1100, 4100], "base": "--devnum=d --wwpn=w --fcplun=f --scsiid=s --scsilun=l", "bi": 0, "lines": ["--devnum=QX", "--wwpn=QX", "--fcplun=QX", "--scsiid=QX", "--scsilun=QX"], "ok": true, "kind": "L", "d": "[(c!\"lineno\", .int 7), (c!\"devnum\", .str c!\"d\"), (c!\"wwpn\", .str c!\"w\"), (c!\"fcplun\", .str c!\"f\"), (c!\"scsiid\", .str c!\"s\"), (c!\"scsilun\", .str c!\"l\")]", "bsets": "[]", "rows": {"--devnum=QX": "[(c!\"devnum\", .str c!\"QX\")]", "--wwpn=QX": "[(c!\"wwpn\", .str c!\"QX\")]", "--fcplun=QX": "[(c!\"fcplun\", .str c!\"QX\")]", "--scsiid=QX": "[(c!\"scsiid\", .str c!\"QX\")]", "--scsilun=QX": "[(c!\"scsilun\", .str c!\"QX\")]"}}, "82": {"cmd": "zfcp", "cls": "FC3_ZFCP.cls FC3_ZFCPData.cls", "vs": [8000, 9000, 5000, 6000, 7000, 1000, 2000, 3000, 4000, 1100, 4100], "base": "--devnum=d --wwpn=w --fcplun=f", "bi": 1, "lines": ["--devnum=QX", "--wwpn=QX", "--fcplun=QX"], "ok": false}, "83": {"cmd": "zfcp", "cls": "FC3_ZFCP.cls FC3_ZFCPData.cls", "vs": [8000, 9000, 5000, 6000, 7000, 1000, 2000, 3000, 4000, 1100, 4100], "base": "--devnum=d", "bi": 2, "lines": ["--wwpn=QX", "--fcplun=QX"], "ok": false}, "84": {"cmd": "install", "cls": "F11_Upgrade.cls", "vs": [9000, 10000, 11000, 12000, 13000, 14000, 15000, 16000, 17000, 11100, 19100], "base": "", "bi": 0, "lines": ["--root-device=QX"], "ok": true, "kind": "P", "d": "[(c!\"upgrade\", .bool false), (c!\"root_device\", .none)]", "bsets": "[(c!\"upgrade\", .bool false)]", "rows": {"--root-device=QX": "[(c!\"root_device\", .str c!\"QX\")]"}}, "85": {"cmd": "part", "cls": "F11_Partition.cls F11_PartData.cls", "vs": [9000], "base": "/x --size=1", "bi": 0, "lines": ["--active", "--asprimary", "--start=42", "--end=42", "--fstype=QX", "--type=QX", "--grow", "--maxsize=42", "--noformat", "--onbiosdisk=QX", "--ondisk=QX", "--ondrive=QX", "--onpart=QX", "--usepart=QX", "--recommended", "--size=42", "--fsoptions=QX", "--label=QX", "--bytes-per-inode=QX", "--fsprofile=QX", "--encrypted", "--passphrase=QX", "--start=QX", "--end=QX", "--escrowcert=QX", "--backuppassphrase", "--resize", "--hibernation", "--cipher=QX", "--mkfsoptions=QX", "--luks-version=QX", "--pbkdf=QX", "--pbkdf-memory=42", "--pbkdf-time=42", "--pbkdf-iterations=42", "--bytes-per-inode=42"], "ok": true, "kind": "L", "d": "[(c!\"lineno\", .int 7), (c!\"active\", .bool false), (c!\"primOnly\", .bool false), (c!\"fstype\", .str c!\"\"), (c!\"grow\", .bool false), (c!\"maxSizeMB\", .int 0), (c!\"format\", .bool true), (c!\"onbiosdisk\", .str c!\"\"), (c!\"disk\", .str c!\"\"), (c!\"onPart\", .str c!\"\"), (c!\"recommended\", .bool false), (c!\"size\", .int 1), (c!\"mountpoint\", .str c!\"/x\"), (c!\"fsopts\", .str c!\"\"), (c!\"label\", .str c!\"\"), (c!\"fsprofile\", .str c!\"\"), (c!\"encrypted\", .bool false), (c!\"passphrase\", .str c!\"\"), (c!\"mntpoint\", .list [c!\"/x\"])]", "bsets": "[]", "rows": {"--active": "[(c!\"active\", .bool true)]", "--asprimary": "[(c!\"primOnly\", .bool true)]", "--start=42": "[(c!\"start\", .str c!\"42\")]", "--end=42": "[(c!\"end\", .str c!\"42\")]", "--fstype=QX": "[(c!\"fstype\", .str c!\"QX\")]", "--type=QX": "[(c!\"fstype\", .str c!\"QX\")]", "--grow": "[(c!\"grow\", .bool true)]", "--maxsize=42": "[(c!\"maxSizeMB\", .int 42)]", "--noformat": "[(c!\"format\", .bool false)]", "--onbiosdisk=QX": "[(c!\"onbiosdisk\", .str c!\"QX\")]", "--ondisk=QX": "[(c!\"disk\", .str c!\"QX\")]", "--ondrive=QX": "[(c!\"disk\", .str c!\"QX\")]", "--onpart=QX": "[(c!\"onPart\", .str c!\"QX\")]", "--usepart=QX": "[(c!\"onPart\", .str c!\"QX\")]", "--recommended": "[(c!\"recommended\", .bool true)]", "--size=42": "[(c!\"size\", .int 42)]", "--fsoptions=QX": "[(c!\"fsopts\", .str c!\"QX\")]", "--label=QX": "[(c!\"label\", .str c!\"QX\")]", "--bytes-per-inode=QX": "[(c!\"bytes_per_inode\", .str c!\"QX\")]", "--fsprofile=QX": "[(c!\"fsprofile\", .str c!\"QX\")]", "--encrypted": "[(c!\"encrypted\", .bool true)]", "--passphrase=QX": "[(c!\"passphrase\", .str c!\"QX\")]", "--start=QX": "[(c!\"start\", .str c!\"QX\")]", "--end=QX": "[(c!\"end\", .str c!\"QX\")]", "--escrowcert=QX": "REFUSED", "--backuppassphrase": "REFUSED", "--resize": "REFUSED", "--hibernation": "REFUSED", "--cipher=QX": "REFUSED", "--mkfsoptions=QX": "REFUSED", "--luks-version=QX": "REFUSED", "--pbkdf=QX": "REFUSED", "--pbkdf-memory=42": "REFUSED", "--pbkdf-time=42": "REFUSED", "--pbkdf-iterations=42": "REFUSED", "--bytes-per-inode=42": "[(c!\"bytes_per_inode\", .str c!\"42\")]"}}, "86": {"cmd": "part", "cls": "F11_Partition.cls F11_PartData.cls", "vs": [9000], "base": "/x --onpart=sda1 --size=1", "bi": 1, "lines": ["--resize", "--noformat"], "ok": true, "kind": "L", "d": "[(c!\"lineno\", .int 7), (c!\"active\", .bool false), (c!\"primOnly\", .bool false), (c!\"fstype\", .str c!\"\"), (c!\"grow\", .bool false), (c!\"maxSizeMB\", .int 0), (c!\"format\", .bool true), (c!\"onbiosdisk\", .str c!\"\"), (c!\"disk\", .str c!\"\"), (c!\"onPart\", .str c!\"sda1\"), (c!\"recommended\", .bool false), (c!\"size\", .int 1), (c!\"mountpoint\", .str c!\"/x\"), (c!\"fsopts\", .str c!\"\"), (c!\"label\", .str c!\"\"), (c!\"fsprofile\", .str c!\"\"), (c!\"encrypted\", .bool false), (c!\"passphrase\", .str c!\"\"), (c!\"mntpoint\", .list [c!\"/x\"])]", "bsets": "[]", "rows": {"--resize": "REFUSED", "--noformat": "[(c!\"format\", .bool false)]"}}, "87": {"cmd": "partition", "cls": "F11_Partition.cls F11_PartData.cls", "vs": [9000], "base": "/x --size=1", "bi": 0, "lines": ["--active", "--asprimary", "--start=42", "--end=42", "--fstype=QX", "--type=QX", "--grow", "--maxsize=42", "--noformat", "--onbiosdisk=QX", "--ondisk=QX", "--ondrive=QX", "--onpart=QX", "--usepart=QX", "--recommended", "--size=42", "--fsoptions=QX", "--label=QX", "--bytes-per-inode=QX", "--fsprofile=QX", "--encrypted", "--passphrase=QX", "--start=QX", "--end=QX", "--escrowcert=QX", "--backuppassphrase", "--resize", "--hibernation", "--cipher=QX", "--mkfsoptions=QX", "--luks-version=QX", "--pbkdf=QX", "--pbkdf-memory=42", "--pbkdf-time=42", "--pbkdf-iterations=42", "--bytes-per-inode=42"], "ok": true, "kind": "L", "d": "[(c!\"lineno\", .int 7), (c!\"active\", .bool false), (c!\"primOnly\", .bool false), (c!\"fstype\", .str c!\"\"), (c!\"grow\", .bool false), (c!\"maxSizeMB\", .int 0), (c!\"format\", .bool true), (c!\"onbiosdisk\", .str c!\"\"), (c!\"disk\", .str c!\"\"), (c!\"onPart\", .str c!\"\"), (c!\"recommended\", .bool false), (c!\"size\", .int 1), (c!\"mountpoint\", .str c!\"/x\"), (c!\"fsopts\", .str c!\"\"), (c!\"label\", .str c!\"\"), (c!\"fsprofile\", .str c!\"\"), (c!\"encrypted\", .bool false), (c!\"passphrase\", .str c!\"\"), (c!\"mntpoint\", .list [c!\"/x\"])]", "bsets": "[]", "rows": {"--active": "[(c!\"active\", .bool true)]", "--asprimary": "[(c!\"primOnly\", .bool true)]", "--start=42": "[(c!\"start\", .str c!\"42\")]", "--end=42": "[(c!\"end\", .str c!\"42\")]", "--fstype=QX": "[(c!\"fstype\", .str c!\"QX\")]", "--type=QX": "[(c!\"fstype\", .str c!\"QX\")]", "--grow": "[(c!\"grow\", .bool true)]", "--maxsize=42": "[(c!\"maxSizeMB\", .int 42)]", "--noformat": "[(c!\"format\", .bool false)]", "--onbiosdisk=QX": "[(c!\"onbiosdisk\", .str c!\"QX\")]", "--ondisk=QX": "[(c!\"disk\", .str c!\"QX\")]", "--ondrive=QX": "[(c!\"disk\", .str c!\"QX\")]", "--onpart=QX": "[(c!\"onPart\", .str c!\"QX\")]", "--usepart=QX": "[(c!\"onPart\", .str c!\"QX\")]", "--recommended": "[(c!\"recommended\", .bool true)]", "--size=42": "[(c!\"size\", .int 42)]", "--fsoptions=QX": "[(c!\"fsopts\", .str c!\"QX\")]", "--label=QX": "[(c!\"label\", .str c!\"QX\")]", "--bytes-per-inode=QX": "[(c!\"bytes_per_inode\", .str c!\"QX\")]", "--fsprofile=QX": "[(c!\"fsprofile\", .str c!\"QX\")]", "--encrypted": "[(c!\"encrypted\", .bool true)]", "--passphrase=QX": "[(c!\"passphrase\", .str c!\"QX\")]", "--start=QX": "[(c!\"start\", .str c!\"QX\")]", "--end=QX": "[(c!\"end\", .str c!\"QX\")]", "--escrowcert=QX": "REFUSED", "--backuppassphrase": "REFUSED", "--resize": "REFUSED", "--hibernation": "REFUSED", "--cipher=QX": "REFUSED", "--mkfsoptions=QX": "REFUSED", "--luks-version=QX": "REFUSED", "--pbkdf=QX": "REFUSED", "--pbkdf-memory=42": "REFUSED", "--pbkdf-time=42": "REFUSED", "--pbkdf-iterations=42": "REFUSED", "--bytes-per-inode=42": "[(c!\"bytes_per_inode\", .str c!\"42\")]"}}, "88": {"cmd": "partition", "cls": "F11_Partition.cls F11_PartData.cls", "vs": [9000], "base": "/x --onpart=sda1 --size=1", "bi": 1, "lines": ["--resize", "--noformat"], "ok": true, "kind": "L", "d": "[(c!\"lineno\", .int 7), (c!\"active\", .bool false), (c!\"primOnly\", .bool false), (c!\"fstype\", .str c!\"\"), (c!\"grow\", .bool false), (c!\"maxSizeMB\", .int 0), (c!\"format\", .bool true), (c!\"onbiosdisk\", .str c!\"\"), (c!\"disk\", .str c!\"\"), (c!\"onPart\", .str c!\"sda1\"), (c!\"recommended\", .bool false), (c!\"size\", .int 1), (c!\"mountpoint\", .str c!\"/x\"), (c!\"fsopts\", .str c!\"\"), (c!\"label\", .str c!\"\"), (c!\"fsprofile\", .str c!\"\"), (c!\"encrypted\", .bool false), (c!\"passphrase\", .str c!\"\"), (c!\"mntpoint\", .list [c!\"/x\"])]", "bsets": "[]", "rows": {"--resize": "REFUSED", "--noformat": "[(c!\"format\", .bool false)]"}}, "89": {"cmd": "repo", "cls": "F11_Repo.cls F11_RepoData.cls", "vs": [9000, 10000], "base": "--name=r --baseurl=b", "bi": 0, "lines": ["--name=QX", "--baseurl=QX", "--mirrorlist=QX", "--cost=42", "--excludepkgs=QX", "--includepkgs=QX", "--ignoregroups=yes", "--ignoregroups=off", "--proxy=QX", "--noverifyssl", "--install", "--metalink=QX", "--sslcacert=QX", "--sslclientcert=QX", "--sslclientkey=QX"], "ok": true, "kind": "L", "d": "[(c!\"lineno\", .int 7), (c!\"baseurl\", .str c!\"b\"), (c!\"mirrorlist\", .none), (c!\"name\", .str c!\"r\"), (c!\"cost\", .none), (c!\"includepkgs\", .list []), (c!\"excludepkgs\", .list []), (c!\"ignoregroups\", .none)]", "bsets": "[]", "rows": {"--name=QX": "[(c!\"name\", .str c!\"QX\")]", "--baseurl=QX": "[(c!\"baseurl\", .str c!\"QX\")]", "--mirrorlist=QX": "REFUSED", "--cost=42": "[(c!\"cost\", .int 42)]", "--excludepkgs=QX": "[(c!\"excludepkgs\", .list [c!\"QX\"])]", "--includepkgs=QX": "[(c!\"includepkgs\", .list [c!\"QX\"])]", "--ignoregroups=yes": "[(c!\"ignoregroups\", .bool true)]", "--ignoregroups=off": "[(c!\"ignoregroups\", .bool false)]", "--proxy=QX": "REFUSED", "--noverifyssl": "REFUSED", "--install": "REFUSED", "--metalink=QX": "REFUSED", "--sslcacert=QX": "REFUSED", "--sslclientcert=QX": "REFUSED", "--sslclientkey=QX": "REFUSED"}}, "90": {"cmd": "repo", "cls": "F11_Repo.cls F11_RepoData.cls", "vs": [9000, 10000], "base": "--name=r --mirrorlist=m", "bi": 1, "lines": ["--baseurl=QX", "--metalink=QX"], "ok": true, "kind": "L", "d": "[(c!\"lineno\", .int 7), (c!\"baseurl\", .str c!\"\"), (c!\"mirrorlist\", .str c!\"m\"), (c!\"name\", .str c!\"r\"), (c!\"cost\", .none), (c!\"includepkgs\", .list []), (c!\"excludepkgs\", .list []), (c!\"ignoregroups\", .none)]", "bsets": "[]", "rows": {"--baseurl=QX": "REFUSED", "--metalink=QX": "REFUSED"}}, "91": {"cmd": "repo", "cls": "F11_Repo.cls F11_RepoData.cls", "vs": [9000, 10000], "base": "--name=r --metalink=m", "bi": 2, "lines": ["--mirrorlist=QX"], "ok": false}, "92": {"cmd": "upgrade", "cls": "F11_Upgrade.cls", "vs": [9000, 10000, 11000, 12000, 13000, 14000, 15000, 16000, 17000, 11100], "base": "", "bi": 0, "lines": ["--root-device=QX"], "ok": true, "kind": "P", "d": "[(c!\"upgrade\", .bool true), (c!\"root_device\", .none)]", "bsets": "[(c!\"upgrade\", .bool true)]", "rows": {"--root-device=QX": "[(c!\"root_device\", .str c!\"QX\")]"}}, "93": {"cmd": "autopart", "cls": "F12_AutoPart.cls", "vs": [10000, 11000, 12000, 13000], "base": "", "bi": 0, "lines": ["--encrypted", "--passphrase=QX", "--escrowcert=QX", "--backuppassphrase", "--nolvm", "--type=lvm", "--type=btrfs", "--type=plain", "--type=partition", "--cipher=QX", "--type=thinp", "--fstype=QX", "--nohome", "--noboot", "--noswap", "--luks-version=QX", "--pbkdf=QX", "--pbkdf-memory=42", "--pbkdf-time=42", "--pbkdf-iterations=42"], "ok": true, "kind": "P", "d": "[(c!\"autopart\", .bool true), (c!\"encrypted\", .bool false), (c!\"passphrase\", .str c!\"\"), (c!\"escrowcert\", .str c!\"\"), (c!\"backuppassphrase\", .bool false)]", "bsets": "[(c!\"autopart\", .bool true)]", "rows": {"--encrypted": "[(c!\"encrypted\", .bool true)]", "--passphrase=QX": "[(c!\"passphrase\", .str c!\"QX\")]", "--escrowcert=QX": "[(c!\"escrowcert\", .str c!\"QX\")]", "--backuppassphrase": "[(c!\"backuppassphrase\", .bool true)]", "--nolvm": "REFUSED", "--type=lvm": "REFUSED", "--type=btrfs": "REFUSED", "--type=plain": "REFUSED", "--type=partition": "REFUSED", "--cipher=QX": "REFUSED", "--type=thinp": "REFUSED", "--fstype=QX": "REFUSED", "--nohome": "REFUSED", "--noboot": "REFUSED", "--noswap": "REFUSED", "--luks-version=QX": "REFUSED", "--pbkdf=QX": "REFUSED", "--pbkdf-memory=42": "REFUSED", "--pbkdf-time=42": "REFUSED", "--pbkdf-iterations=42": "REFUSED"}}, "94": {"cmd": "bootloader", "cls": "F12_Bootloader.cls", "vs": [10000, 11000], "base": "", "bi": 0, "lines": ["--append=QX", "--location=mbr", "--location=partition", "--location=none", "--location=boot", "--lba32", "--password=QX", "--md5pass=QX", "--upgrade", "--driveorder=QX", "--timeout=42", "--default=QX", "--iscrypted", "--boot-drive=QX", "--leavebootorder", "--extlinux", "--disabled", "--nombr", "--linear", "--nolinear", "--useLilo", "--hvargs=QX"], "ok": true, "kind": "P", "d": "[(c!\"driveorder\", .list []), (c!\"appendLine\", .str c!\"\"), (c!\"forceLBA\", .bool false), (c!\"location\", .str c!\"mbr\"), (c!\"md5pass\", .str c!\"\"), (c!\"password\", .str c!\"\"), (c!\"upgrade\", .bool false), (c!\"timeout\", .none), (c!\"default\", .str c!\"\")]", "bsets": "[(c!\"location\", .str c!\"mbr\")]", "rows": {"--append=QX": "[(c!\"appendLine\", .str c!\"QX\")]", "--location=mbr": "[]", "--location=partition": "[(c!\"location\", .str c!\"partition\")]", "--location=none": "[(c!\"location\", .str c!\"none\")]", "--location=boot": "[(c!\"location\", .str c!\"boot\")]", "--lba32": "[(c!\"forceLBA\", .bool true)]", "--password=QX": "[(c!\"password\", .str c!\"QX\")]", "--md5pass=QX": "[(c!\"md5pass\", .str c!\"QX\")]", "--upgrade": "[(c!\"upgrade\", .bool true)]", "--driveorder=QX": "[(c!\"driveorder\", .list [c!\"QX\"])]", "--timeout=42": "[(c!\"timeout\", .int 42)]", "--default=QX": "[(c!\"default\", .str c!\"QX\")]", "--iscrypted": "REFUSED", "--boot-drive=QX": "REFUSED", "--leavebootorder": "REFUSED", "--extlinux": "REFUSED", "--disabled": "REFUSED", "--nombr": "REFUSED", "--linear": "REFUSED", "--nolinear": "REFUSED", "--useLilo": "REFUSED", "--hvargs=QX": "REFUSED"}}, "95": {"cmd": "driverdisk", "cls": "F12_DriverDisk.cls F12_DriverDiskData.cls", "vs": [10000, 11000, 4100, 11100], "base": "d", "bi": 0, "lines": ["--source=QX", "--type=QX", "--biospart=QX"], "ok": true, "kind": "L", "d": "[(c!\"lineno\", .int 7), (c!\"partition\", .str c!\"d\"), (c!\"source\", .str c!\"\"), (c!\"biospart\", .str c!\"\")]", "bsets": "[]", "rows": {"--source=QX": "REFUSED", "--type=QX": "[(c!\"type\", .str c!\"QX\")]", "--biospart=QX": "REFUSED"}}, "96": {"cmd": "driverdisk", "cls": "F12_DriverDisk.cls F12_DriverDiskData.cls", "vs": [10000, 11000, 4100, 11100], "base": "--source=s", "bi": 1, "lines": [], "ok": true, "kind": "L", "d": "[(c!\"lineno\", .int 7), (c!\"partition\", .list []), (c!\"source\", .str c!\"s\"), (c!\"biospart\", .str c!\"\")]", "bsets": "[]", "rows": {}}, "97": {"cmd": "driverdisk", "cls": "F12_DriverDisk.cls F12_DriverDiskData.cls", "vs": [10000, 11000, 4100, 11100], "base": "--biospart=b", "bi": 2, "lines": [], "ok": true, "kind": "L", "d": "[(c!\"lineno\", .int 7), (c!\"partition\", .list []), (c!\"source\", .str c!\"\"), (c!\"biospart\", .str c!\"b\")]", "bsets": "[]", "rows": {}}, "98": {"cmd": "fcoe", "cls": "F12_Fcoe.cls F12_FcoeData.cls", "vs": [10000], "base": "--nic=n", "bi": 0, "lines": ["--nic=QX", "--dcb", "--autovlan"], "ok": true, "kind": "L", "d": "[(c!\"lineno\", .int 7), (c!\"nic\", .str c!\"n\")]", "bsets": "[]", "rows": {"--nic=QX": "[(c!\"nic\", .str c!\"QX\")]", "--dcb": "REFUSED", "--autovlan": "REFUSED"}}, "99": {"cmd": "group", "cls": "F12_Group.cls F12_GroupData.cls", "vs": [10000, 11000, 12000, 13000, 14000, 15000, 16000, 17000, 18000, 19000, 20000, 21000, 22000, 23000, 24000, 25000, 26000, 27000, 30000, 31000, 32000, 33000, 34000, 11100, 19100, 26100], "base": "--name=g", "bi": 0, "lines": ["--name=QX", "--gid=42"], "ok": true, "kind": "L", "d": "[(c!\"lineno\", .int 7), (c!\"name\", .str c!\"g\"), (c!\"gid\", .none)]", "bsets": "[]", "rows": {"--name=QX": "[(c!\"name\", .str c!\"QX\")]", "--gid=42": "[(c!\"gid\", .int 42)]"}}, "100": {"cmd": "logvol", "cls": "F12_LogVol.cls F12_LogVolData.cls", "vs": [10000, 11000], "base": "/x --name=n --vgname=g --size=1", "bi": 0, "lines": ["--fstype=QX", "--grow", "--maxsize=42", "--name=QX", "--noformat", "--percent=42", "--recommended", "--size=42", "--useexisting", "--vgname=QX", "--fsoptions=QX", "--bytes-per-inode=QX", "--fsprofile=QX", "--encrypted", "--passphrase=QX", "--escrowcert=QX", "--backuppassphrase", "--label=QX", "--resize", "--hibernation", "--cipher=QX", "--thinpool", "--thin", "--poolname=QX", "--chunksize=42", "--metadatasize=42", "--profile=QX", "--cachesize=42", "--cachemode=QX", "--cachepvs=QX", "--mkfsoptions=QX", "--luks-version=QX", "--pbkdf=QX", "--pbkdf-memory=42", "--pbkdf-time=42", "--pbkdf-iterations=42", "--bytes-per-inode=42"], "ok": true, "kind": "L", "d": "[(c!\"lineno\", .int 7), (c!\"fstype\", .str c!\"\"), (c!\"grow\", .bool false), (c!\"maxSizeMB\", .int 0), (c!\"name\", .str c!\"n\"), (c!\"format\", .bool true), (c!\"percent\", .int 0), (c!\"recommended\", .bool false), (c!\"size\", .int 1), (c!\"preexist\", .bool false), (c!\"vgname\", .str c!\"g\"), (c!\"mountpoint\", .str c!\"/x\"), (c!\"fsopts\", .str c!\"\"), (c!\"fsprofile\", .str c!\"\"), (c!\"encrypted\", .bool false), (c!\"passphrase\", .str c!\"\"), (c!\"escrowcert\", .str c!\"\"), (c!\"backuppassphrase\", .bool false), (c!\"mntpoint\", .list [c!\"/x\"])]", "bsets": "[]", "rows": {"--fstype=QX": "[(c!\"fstype\", .str c!\"QX\")]", "--grow": "[(c!\"grow\", .bool true)]", "--maxsize=42": "[(c!\"maxSizeMB\", .int 42)]", "--name=QX": "[(c!\"name\", .str c!\"QX\")]", "--noformat": "[(c!\"format\", .bool false), (c!\"preexist\", .bool true)]", "--percent=42": "[(c!\"percent\", .int 42)]", "--recommended": "[(c!\"recommended\", .bool true)]", "--size=42": "[(c!\"size\", .int 42)]", "--useexisting": "[(c!\"preexist\", .bool true)]", "--vgname=QX": "[(c!\"vgname\", .str c!\"QX\")]", "--fsoptions=QX": "[(c!\"fsopts\", .str c!\"QX\")]", "--bytes-per-inode=QX": "[(c!\"bytes_per_inode\", .str c!\"QX\")]", "--fsprofile=QX": "[(c!\"fsprofile\", .str c!\"QX\")]", "--encrypted": "[(c!\"encrypted\", .bool true)]", "--passphrase=QX": "[(c!\"passphrase\", .str c!\"QX\")]", "--escrowcert=QX": "[(c!\"escrowcert\", .str c!\"QX\")]", "--backuppassphrase": "[(c!\"backuppassphrase\", .bool true)]", "--label=QX": "REFUSED", "--resize": "REFUSED", "--hibernation": "REFUSED", "--cipher=QX": "REFUSED", "--thinpool": "REFUSED", "--thin": "REFUSED", "--poolname=QX": "REFUSED", "--chunksize=42": "REFUSED", "--metadatasize=42": "REFUSED", "--profile=QX": "REFUSED", "--cachesize=42": "REFUSED", "--cachemode=QX": "REFUSED", "--cachepvs=QX": "REFUSED", "--mkfsoptions=QX": "REFUSED", "--luks-version=QX": "REFUSED", "--pbkdf=QX": "REFUSED", "--pbkdf-memory=42": "REFUSED", "--pbkdf-time=42": "REFUSED", "--pbkdf-iterations=42": "REFUSED", "--bytes-per-inode=42": "[(c!\"bytes_per_inode\", .str c!\"42\")]"}}, "101": {"cmd": "logvol", "cls": "F12_LogVol.cls F12_LogVolData.cls", "vs": [10000, 11000], "base": "/x --name=n --vgname=g --useexisting", "bi": 1, "lines": ["--size=42", "--resize", "--noformat", "--fstype=ext4"], "ok": true, "kind": "L", "d": "[(c!\"lineno\", .int 7), (c!\"fstype\", .str c!\"\"), (c!\"grow\", .bool false), (c!\"maxSizeMB\", .int 0), (c!\"name\", .str c!\"n\"), (c!\"format\", .bool true), (c!\"percent\", .int 0), (c!\"recommended\", .bool false), (c!\"size\", .none), (c!\"preexist\", .bool true), (c!\"vgname\", .str c!\"g\"), (c!\"mountpoint\", .str c!\"/x\"), (c!\"fsopts\", .str c!\"\"), (c!\"fsprofile\", .str c!\"\"), (c!\"encrypted\", .bool false), (c!\"passphrase\", .str c!\"\"), (c!\"escrowcert\", .str c!\"\"), (c!\"backuppassphrase\", .bool false), (c!\"mntpoint\", .list [c!\"/x\"])]", "bsets": "[]", "rows": {"--size=42": "[(c!\"size\", .int 42)]", "--resize": "REFUSED", "--noformat": "[(c!\"format\", .bool false)]", "--fstype=ext4": "[(c!\"fstype\", .str c!\"ext4\")]"}}, "102": {"cmd": "logvol", "cls": "F12_LogVol.cls F12_LogVolData.cls", "vs": [10000, 11000], "base": "/x --name=n --vgname=g", "bi": 2, "lines": ["--percent=42", "--useexisting", "--noformat"], "ok": true, "kind": "L", "d": "[(c!\"lineno\", .int 7), (c!\"fstype\", .str c!\"\"), (c!\"grow\", .bool false), (c!\"maxSizeMB\", .int 0), (c!\"name\", .str c!\"n\"), (c!\"format\", .bool true), (c!\"percent\", .int 0), (c!\"recommended\", .bool false), (c!\"size\", .none), (c!\"preexist\", .bool false), (c!\"vgname\", .str c!\"g\"), (c!\"mountpoint\", .str c!\"/x\"), (c!\"fsopts\", .str c!\"\"), (c!\"fsprofile\", .str c!\"\"), (c!\"encrypted\", .bool false), (c!\"passphrase\", .str c!\"\"), (c!\"escrowcert\", .str c!\"\"), (c!\"backuppassphrase\", .bool false), (c!\"mntpoint\", .list [c!\"/x\"])]", "bsets": "[]", "rows": {"--percent=42": "[(c!\"percent\", .int 42)]", "--useexisting": "[(c!\"preexist\", .bool true)]", "--noformat": "[(c!\"format\", .bool false), (c!\"preexist\", .bool true)]"}}, "103": {"cmd": "logvol", "cls": "F12_LogVol.cls F12_LogVolData.cls", "vs": [10000, 11000], "base": "/x --name=n --vgname=g --size=1 --poolname=p", "bi": 3, "lines": ["--thin", "--thinpool", "--label=QX"], "ok": false}, "104": {"cmd": "logvol", "cls": "F12_LogVol.cls F12_LogVolData.cls", "vs": [10000, 11000], "base": "none --name=n --vgname=g --size=1 --thinpool", "bi": 4, "lines": ["--chunksize=42", "--metadatasize=42", "--profile=QX", "--grow"], "ok": false}, "105": {"cmd": "logvol", "cls": "F12_LogVol.cls F12_LogVolData.cls", "vs": [10000, 11000], "base": "/x --name=n --vgname=g --size=1 --cachepvs=a --cachesize=5", "bi": 5, "lines": ["--cachemode=writeback", "--cachemode=writethrough"], "ok": false}, "106": {"cmd": "part", "cls": "F12_Partition.cls F12_PartData.cls", "vs": [10000, 11000], "base": "/x --size=1", "bi": 0, "lines": ["--active", "--asprimary", "--start=42", "--end=42", "--fstype=QX", "--type=QX", "--grow", "--maxsize=42", "--noformat", "--onbiosdisk=QX", "--ondisk=QX", "--ondrive=QX", "--onpart=QX", "--usepart=QX", "--recommended", "--size=42", "--fsoptions=QX", "--label=QX", "--bytes-per-inode=QX", "--fsprofile=QX", "--encrypted", "--passphrase=QX", "--start=QX", "--end=QX", "--escrowcert=QX", "--backuppassphrase", "--resize", "--hibernation", "--cipher=QX", "--mkfsoptions=QX", "--luks-version=QX", "--pbkdf=QX", "--pbkdf-memory=42", "--pbkdf-time=42", "--pbkdf-iterations=42", "--bytes-per-inode=42"], "ok": true, "kind": "L", "d": "[(c!\"lineno\", .int 7), (c!\"active\", .bool false), (c!\"primOnly\", .bool false), (c!\"fstype\", .str c!\"\"), (c!\"grow\", .bool false), (c!\"maxSizeMB\", .int 0), (c!\"format\", .bool true), (c!\"onbiosdisk\", .str c!\"\"), (c!\"disk\", .str c!\"\"), (c!\"onPart\", .str c!\"\"), (c!\"recommended\", .bool false), (c!\"size\", .int 1), (c!\"mountpoint\", .str c!\"/x\"), (c!\"fsopts\", .str c!\"\"), (c!\"label\", .str c!\"\"), (c!\"fsprofile\", .str c!\"\"), (c!\"encrypted\", .bool false), (c!\"passphrase\", .str c!\"\"), (c!\"escrowcert\", .str c!\"\"), (c!\"backuppassphrase\", .bool false), (c!\"mntpoint\", .list [c!\"/x\"])]", "bsets": "[]", "rows": {"--active": "[(c!\"active\", .bool true)]", "--asprimary": "[(c!\"primOnly\", .bool true)]", "--start=42": "[(c!\"start\", .str c!\"42\")]", "--end=42": "[(c!\"end\", .str c!\"42\")]", "--fstype=QX": "[(c!\"fstype\", .str c!\"QX\")]", "--type=QX": "[(c!\"fstype\", .str c!\"QX\")]", "--grow": "[(c!\"grow\", .bool true)]", "--maxsize=42": "[(c!\"maxSizeMB\", .int 42)]", "--noformat": "[(c!\"format\", .bool false)]", "--onbiosdisk=QX": "[(c!\"onbiosdisk\", .str c!\"QX\")]", "--ondisk=QX": "[(c!\"disk\", .str c!\"QX\")]", "--ondrive=QX": "[(c!\"disk\", .str c!\"QX\")]", "--onpart=QX": "[(c!\"onPart\", .str c!\"QX\")]", "--usepart=QX": "[(c!\"onPart\", .str c!\"QX\")]", "--recommended": "[(c!\"recommended\", .bool true)]", "--size=42": "[(c!\"size\", .int 42)]", "--fsoptions=QX": "[(c!\"fsopts\", .str c!\"QX\")]", "--label=QX": "[(c!\"label\", .str c!\"QX\")]", "--bytes-per-inode=QX": "[(c!\"bytes_per_inode\", .str c!\"QX\")]", "--fsprofile=QX": "[(c!\"fsprofile\", .str c!\"QX\")]", "--encrypted": "[(c!\"encrypted\", .bool true)]", "--passphrase=QX": "[(c!\"passphrase\", .str c!\"QX\")]", "--start=QX": "[(c!\"start\", .str c!\"QX\")]", "--end=QX": "[(c!\"end\", .str c!\"QX\")]", "--escrowcert=QX": "[(c!\"escrowcert\", .str c!\"QX\")]", "--backuppassphrase": "[(c!\"backuppassphrase\", .bool true)]", "--resize": "REFUSED", "--hibernation": "REFUSED", "--cipher=QX": "REFUSED", "--mkfsoptions=QX": "REFUSED", "--luks-version=QX": "REFUSED", "--pbkdf=QX": "REFUSED", "--pbkdf-memory=42": "REFUSED", "--pbkdf-time=42": "REFUSED", "--pbkdf-iterations=42": "REFUSED", "--bytes-per-inode=42": "[(c!\"bytes_per_inode\", .str c!\"42\")]"}}, "107": {"cmd": "part", "cls": "F12_Partition.cls F12_PartData.cls", "vs": [10000, 11000], "base": "/x --onpart=sda1 --size=1", "bi": 1, "lines": ["--resize", "--noformat"], "ok": true, "kind": "L", "d": "[(c!\"lineno\", .int 7), (c!\"active\", .bool false), (c!\"primOnly\", .bool false), (c!\"fstype\", .str c!\"\"), (c!\"grow\", .bool false), (c!\"maxSizeMB\", .int 0), (c!\"format\", .bool true), (c!\"onbiosdisk\", .str c!\"\"), (c!\"disk\", .str c!\"\"), (c!\"onPart\", .str c!\"sda1\"), (c!\"recommended\", .bool false), (c!\"size\", .int 1), (c!\"mountpoint\", .str c!\"/x\"), (c!\"fsopts\", .str c!\"\"), (c!\"label\", .str c!\"\"), (c!\"fsprofile\", .str c!\"\"), (c!\"encrypted\", .bool false), (c!\"passphrase\", .str c!\"\"), (c!\"escrowcert\", .str c!\"\"), (c!\"backuppassphrase\", .bool false), (c!\"mntpoint\", .list [c!\"/x\"])]", "bsets": "[]", "rows": {"--resize": "REFUSED", "--noformat": "[(c!\"format\", .bool false)]"}}, "108": {"cmd": "partition", "cls": "F12_Partition.cls F12_PartData.cls", "vs": [10000, 11000], "base": "/x --size=1", "bi": 0, "lines": ["--active", "--asprimary", "--start=42", "--end=42", "--fstype=QX", "--type=QX", "--grow", "--maxsize=42", "--noformat", "--onbiosdisk=QX", "--ondisk=QX", "--ondrive=QX", "--onpart=QX", "--usepart=QX", "--recommended", "--size=42", "--fsoptions=QX", "--label=QX", "--bytes-per-inode=QX", "--fsprofile=QX", "--encrypted", "--passphrase=QX", "--start=QX", "--end=QX", "--escrowcert=QX", "--backuppassphrase", "--resize", "--hibernation", "--cipher=QX", "--mkfsoptions=QX", "--luks-version=QX", "--pbkdf=QX", "--pbkdf-memory=42", "--pbkdf-time=42", "--pbkdf-iterations=42", "--bytes-per-inode=42"], "ok": true, "kind": "L", "d": "[(c!\"lineno\", .int 7), (c!\"active\", .bool false), (c!\"primOnly\", .bool false), (c!\"fstype\", .str c!\"\"), (c!\"grow\", .bool false), (c!\"maxSizeMB\", .int 0), (c!\"format\", .bool true), (c!\"onbiosdisk\", .str c!\"\"), (c!\"disk\", .str c!\"\"), (c!\"onPart\", .str c!\"\"), (c!\"recommended\", .bool false), (c!\"size\", .int 1), (c!\"mountpoint\", .str c!\"/x\"), (c!\"fsopts\", .str c!\"\"), (c!\"label\", .str c!\"\"), (c!\"fsprofile\", .str c!\"\"), (c!\"encrypted\", .bool false), (c!\"passphrase\", .str c!\"\"), (c!\"escrowcert\", .str c!\"\"), (c!\"backuppassphrase\", .bool false), (c!\"mntpoint\", .list [c!\"/x\"])]", "bsets": "[]", "rows": {"--active": "[(c!\"active\", .bool true)]", "--asprimary": "[(c!\"primOnly\", .bool true)]", "--start=42": "[(c!\"start\", .str c!\"42\")]", "--end=42": "[(c!\"end\", .str c!\"42\")]", "--fstype=QX": "[(c!\"fstype\", .str c!\"QX\")]", "--type=QX": "[(c!\"fstype\", .str c!\"QX\")]", "--grow": "[(c!\"grow\", .bool true)]", "--maxsize=42": "[(c!\"maxSizeMB\", .int 42)]", "--noformat": "[(c!\"format\", .bool false)]", "--onbiosdisk=QX": "[(c!\"onbiosdisk\", .str c!\"QX\")]", "--ondisk=QX": "[(c!\"disk\", .str c!\"QX\")]", "--ondrive=QX": "[(c!\"disk\", .str c!\"QX\")]", "--onpart=QX": "[(c!\"onPart\", .str c!\"QX\")]", "--usepart=QX": "[(c!\"onPart\", .str c!\"QX\")]", "--recommended": "[(c!\"recommended\", .bool true)]", "--size=42": "[(c!\"size\", .int 42)]", "--fsoptions=QX": "[(c!\"fsopts\", .str c!\"QX\")]", "--label=QX": "[(c!\"label\", .str c!\"QX\")]", "--bytes-per-inode=QX": "[(c!\"bytes_per_inode\", .str c!\"QX\")]", "--fsprofile=QX": "[(c!\"fsprofile\", .str c!\"QX\")]", "--encrypted": "[(c!\"encrypted\", .bool true)]", "--passphrase=QX": "[(c!\"passphrase\", .str c!\"QX\")]", "--start=QX": "[(c!\"start\", .str c!\"QX\")]", "--end=QX": "[(c!\"end\", .str c!\"QX\")]", "--escrowcert=QX": "[(c!\"escrowcert\", .str c!\"QX\")]", "--backuppassphrase": "[(c!\"backuppassphrase\", .bool true)]", "--resize": "REFUSED", "--hibernation": "REFUSED", "--cipher=QX": "REFUSED", "--mkfsoptions=QX": "REFUSED", "--luks-version=QX": "REFUSED", "--pbkdf=QX": "REFUSED", "--pbkdf-memory=42": "REFUSED", "--pbkdf-time=42": "REFUSED", "--pbkdf-iterations=42": "REFUSED", "--bytes-per-inode=42": "[(c!\"bytes_per_inode\", .str c!\"42\")]"}}, "109": {"cmd": "partition", "cls": "F12_Partition.cls F12_PartData.cls", "vs": [10000, 11000], "base": "/x --onpart=sda1 --size=1", "bi": 1, "lines": ["--resize", "--noformat"], "ok": true, "kind": "L", "d": "[(c!\"lineno\", .int 7), (c!\"active\", .bool false), (c!\"primOnly\", .bool false), (c!\"fstype\", .str c!\"\"), (c!\"grow\", .bool false), (c!\"maxSizeMB\", .int 0), (c!\"format\", .bool true), (c!\"onbiosdisk\", .str c!\"\"), (c!\"disk\", .str c!\"\"), (c!\"onPart\", .str c!\"sda1\"), (c!\"recommended\", .bool false), (c!\"size\", .int 1), (c!\"mountpoint\", .str c!\"/x\"), (c!\"fsopts\", .str c!\"\"), (c!\"label\", .str c!\"\"), (c!\"fsprofile\", .str c!\"\"), (c!\"encrypted\", .bool false), (c!\"passphrase\", .str c!\"\"), (c!\"escrowcert\", .str c!\"\"), (c!\"backuppassphrase\", .bool false), (c!\"mntpoint\", .list [c!\"/x\"])]", "bsets": "[]", "rows": {"--resize": "REFUSED", "--noformat": "[(c!\"format\", .bool false)]"}}, "110": {"cmd": "raid", "cls": "F12_Raid.cls F12_RaidData.cls", "vs": [10000], "base": "/x --device=1 --level=RAID1 raid.1 raid.2", "bi": 0, "lines": ["--device=QX", "--fstype=QX", "--level=RAID0", "--level=0", "--level=RAID1", "--level=1", "--level=RAID5", "--level=5", "--level=RAID6", "--level=6", "--level=RAID10", "--level=10", "--noformat", "--spares=42", "--useexisting", "--fsoptions=QX", "--bytes-per-inode=QX", "--fsprofile=QX", "--encrypted", "--passphrase=QX", "--escrowcert=QX", "--backuppassphrase", "--level=RAID4", "--level=4", "--label=QX", "--cipher=QX", "--mkfsoptions=QX", "--chunksize=42", "--luks-version=QX", "--pbkdf=QX", "--pbkdf-memory=42", "--pbkdf-time=42", "--pbkdf-iterations=42", "--bytes-per-inode=42"], "ok": true, "kind": "L", "d": "[(c!\"lineno\", .int 7), (c!\"device\", .int 1), (c!\"fstype\", .str c!\"\"), (c!\"level\", .str c!\"RAID1\"), (c!\"format\", .bool true), (c!\"spares\", .int 0), (c!\"preexist\", .bool false), (c!\"mountpoint\", .str c!\"/x\"), (c!\"members\", .list [c!\"raid.1\", c!\"raid.2\"]), (c!\"fsopts\", .str c!\"\"), (c!\"fsprofile\", .str c!\"\"), (c!\"encrypted\", .bool false), (c!\"passphrase\", .str c!\"\"), (c!\"escrowcert\", .str c!\"\"), (c!\"backuppassphrase\", .bool false), (c!\"mntpoint\", .list [c!\"/x\"]), (c!\"partitions\", .list [c!\"raid.1\", c!\"raid.2\"])]", "bsets": "[]", "rows": {"--device=QX": "REFUSED", "--fstype=QX": "[(c!\"fstype\", .str c!\"QX\")]", "--level=RAID0": "[(c!\"level\", .str c!\"RAID0\")]", "--level=0": "[(c!\"level\", .str c!\"RAID0\")]", "--level=RAID1": "[]", "--level=1": "[]", "--level=RAID5": "[(c!\"level\", .str c!\"RAID5\")]", "--level=5": "[(c!\"level\", .str c!\"RAID5\")]", "--level=RAID6": "[(c!\"level\", .str c!\"RAID6\")]", "--level=6": "[(c!\"level\", .str c!\"RAID6\")]", "--level=RAID10": "[(c!\"level\", .str c!\"RAID10\")]", "--level=10": "[(c!\"level\", .str c!\"RAID10\")]", "--noformat": "REFUSED", "--spares=42": "[(c!\"spares\", .int 42)]", "--useexisting": "REFUSED", "--fsoptions=QX": "[(c!\"fsopts\", .str c!\"QX\")]", "--bytes-per-inode=QX": "[(c!\"bytes_per_inode\", .str c!\"QX\")]", "--fsprofile=QX": "[(c!\"fsprofile\", .str c!\"QX\")]", "--encrypted": "[(c!\"encrypted\", .bool true)]", "--passphrase=QX": "[(c!\"passphrase\", .str c!\"QX\")]", "--escrowcert=QX": "[(c!\"escrowcert\", .str c!\"QX\")]", "--backuppassphrase": "[(c!\"backuppassphrase\", .bool true)]", "--level=RAID4": "REFUSED", "--level=4": "REFUSED", "--label=QX": "REFUSED", "--cipher=QX": "REFUSED", "--mkfsoptions=QX": "REFUSED", "--chunksize=42": "REFUSED", "--luks-version=QX": "REFUSED", "--pbkdf=QX": "REFUSED", "--pbkdf-memory=42": "REFUSED", "--pbkdf-time=42": "REFUSED", "--pbkdf-iterations=42": "REFUSED", "--bytes-per-inode=42": "[(c!\"bytes_per_inode\", .str c!\"42\")]"}}, "111": {"cmd": "raid", "cls": "F12_Raid.cls F12_RaidData.cls", "vs": [10000], "base": "/x --device=1 --noformat", "bi": 1, "lines": ["--fstype=ext4", "--label=QX"], "ok": true, "kind": "L", "d": "[(c!\"lineno\", .int 7), (c!\"device\", .int 1), (c!\"fstype\", .str c!\"\"), (c!\"level\", .str c!\"\"), (c!\"format\", .bool false), (c!\"spares\", .int 0), (c!\"preexist\", .bool true), (c!\"mountpoint\", .str c!\"/x\"), (c!\"members\", .list []), (c!\"fsopts\", .str c!\"\"), (c!\"fsprofile\", .str c!\"\"), (c!\"encrypted\", .bool false), (c!\"passphrase\", .str c!\"\"), (c!\"escrowcert\", .str c!\"\"), (c!\"backuppassphrase\", .bool false), (c!\"mntpoint\", .list [c!\"/x\"]), (c!\"partitions\", .list [])]", "bsets": "[]", "rows": {"--fstype=ext4": "[(c!\"fstype\", .str c!\"ext4\")]", "--label=QX": "REFUSED"}}, "112": {"cmd": "raid", "cls": "F12_Raid.cls F12_RaidData.cls", "vs": [10000], "base": "/x --device=1 --useexisting", "bi": 2, "lines": ["--fstype=ext4", "--label=QX"], "ok": true, "kind": "L", "d": "[(c!\"lineno\", .int 7), (c!\"device\", .int 1), (c!\"fstype\", .str c!\"\"), (c!\"level\", .str c!\"\"), (c!\"format\", .bool true), (c!\"spares\", .int 0), (c!\"preexist\", .bool true), (c!\"mountpoint\", .str c!\"/x\"), (c!\"members\", .list []), (c!\"fsopts\", .str c!\"\"), (c!\"fsprofile\", .str c!\"\"), (c!\"encrypted\", .bool false), (c!\"passphrase\", .str c!\"\"), (c!\"escrowcert\", .str c!\"\"), (c!\"backuppassphrase\", .bool false), (c!\"mntpoint\", .list [c!\"/x\"]), (c!\"partitions\", .list [])]", "bsets": "[]", "rows": {"--fstype=ext4": "[(c!\"fstype\", .str c!\"ext4\")]", "--label=QX": "REFUSED"}}, "113": {"cmd": "raid", "cls": "F12_Raid.cls F12_RaidData.cls", "vs": [10000], "base": "/x --device=1 --level=RAID1 raid.1 raid.2 raid.3", "bi": 3, "lines": ["--device=md7", "--device=data", "--level=0", "--level=RAID5", "--level=raid6", "--level=10", "--level=linear", "--spares=1", "--spares=2"], "ok": true, "kind": "L", "d": "[(c!\"lineno\", .int 7), (c!\"device\", .int 1), (c!\"fstype\", .str c!\"\"), (c!\"level\", .str c!\"RAID1\"), (c!\"format\", .bool true), (c!\"spares\", .int 0), (c!\"preexist\", .bool false), (c!\"mountpoint\", .str c!\"/x\"), (c!\"members\", .list [c!\"raid.1\", c!\"raid.2\", c!\"raid.3\"]), (c!\"fsopts\", .str c!\"\"), (c!\"fsprofile\", .str c!\"\"), (c!\"encrypted\", .bool false), (c!\"passphrase\", .str c!\"\"), (c!\"escrowcert\", .str c!\"\"), (c!\"backuppassphrase\", .bool false), (c!\"mntpoint\", .list [c!\"/x\"]), (c!\"partitions\", .list [c!\"raid.1\", c!\"raid.2\", c!\"raid.3\"])]", "bsets": "[]", "rows": {"--device=md7": "[(c!\"device\", .int 7)]", "--device=data": "REFUSED", "--level=0": "[(c!\"level\", .str c!\"RAID0\")]", "--level=RAID5": "[(c!\"level\", .str c!\"RAID5\")]", "--level=raid6": "[(c!\"level\", .str c!\"RAID6\")]", "--level=10": "[(c!\"level\", .str c!\"RAID10\")]", "--level=linear": "REFUSED", "--spares=1": "[(c!\"spares\", .int 1)]", "--spares=2": "[(c!\"spares\", .int 2)]"}}, "114": {"cmd": "user", "cls": "F12_User.cls F12_UserData.cls", "vs": [10000, 11000, 12000, 13000, 14000, 15000, 16000, 11100], "base": "--name=u", "bi": 0, "lines": ["--groups=QX", "--homedir=QX", "--iscrypted", "--name=QX", "--password=QX", "--shell=QX", "--uid=42", "--lock", "--plaintext", "--gecos=QX", "--gid=42"], "ok": true, "kind": "L", "d": "[(c!\"lineno\", .int 7), (c!\"groups\", .list []), (c!\"homedir\", .str c!\"\"), (c!\"isCrypted\", .bool false), (c!\"name\", .str c!\"u\"), (c!\"password\", .str c!\"\"), (c!\"shell\", .str c!\"\"), (c!\"uid\", .none), (c!\"lock\", .bool false), (c!\"gecos\", .str c!\"\")]", "bsets": "[]", "rows": {"--groups=QX": "[(c!\"groups\", .list [c!\"QX\"])]", "--homedir=QX": "[(c!\"homedir\", .str c!\"QX\")]", "--iscrypted": "[(c!\"isCrypted\", .bool true)]", "--name=QX": "[(c!\"name\", .str c!\"QX\")]", "--password=QX": "[(c!\"password\", .str c!\"QX\")]", "--shell=QX": "[(c!\"shell\", .str c!\"QX\")]", "--uid=42": "[(c!\"uid\", .int 42)]", "--lock": "[(c!\"lock\", .bool true)]", "--plaintext": "[]", "--gecos=QX": "[(c!\"gecos\", .str c!\"QX\")]", "--gid=42": "REFUSED"}}, "115": {"cmd": "zfcp", "cls": "F12_ZFCP.cls F12_ZFCPData.cls", "vs": [10000, 11000, 11100], "base": "--devnum=d --wwpn=w --fcplun=f --scsiid=s --scsilun=l", "bi": 0, "lines": ["--devnum=QX", "--wwpn=QX", "--fcplun=QX", "--scsiid=QX", "--scsilun=QX"], "ok": true, "kind": "L", "d": "[(c!\"lineno\", .int 7), (c!\"devnum\", .str c!\"d\"), (c!\"wwpn\", .str c!\"w\"), (c!\"fcplun\", .str c!\"f\"), (c!\"scsiid\", .str c!\"s\"), (c!\"scsilun\", .str c!\"l\")]", "bsets": "[]", "rows": {"--devnum=QX": "[(c!\"devnum\", .str c!\"QX\")]", "--wwpn=QX": "[(c!\"wwpn\", .str c!\"QX\")]", "--fcplun=QX": "[(c!\"fcplun\", .str c!\"QX\")]", "--scsiid=QX": "[(c!\"scsiid\", .str c!\"QX\")]", "--scsilun=QX": "[(c!\"scsilun\", .str c!\"QX\")]"}}, "116": {"cmd": "zfcp", "cls": "F12_ZFCP.cls F12_ZFCPData.cls", "vs": [10000, 11000, 11100], "base": "--devnum=d --wwpn=w --fcplun=f", "bi": 1, "lines": ["--devnum=QX", "--wwpn=QX", "--fcplun=QX"], "ok": true, "kind": "L", "d": "[(c!\"lineno\", .int 7), (c!\"devnum\", .str c!\"d\"), (c!\"wwpn\", .str c!\"w\"), (c!\"fcplun\", .str c!\"f\")]", "bsets": "[]", "rows": {"--devnum=QX": "[(c!\"devnum\", .str c!\"QX\")]", "--wwpn=QX": "[(c!\"wwpn\", .str c!\"QX\")]", "--fcplun=QX": "[(c!\"fcplun\", .str c!\"QX\")]"}}, "117": {"cmd": "zfcp", "cls": "F12_ZFCP.cls F12_ZFCPData.cls", "vs": [10000, 11000, 11100], "base": "--devnum=d", "bi": 2, "lines": ["--wwpn=QX", "--fcplun=QX"], "ok": false}, "118": {"cmd": "fcoe", "cls": "F13_Fcoe.cls F13_FcoeData.cls", "vs": [11000, 12000, 13000, 14000, 15000, 17000, 18000, 19000, 20000, 21000, 22000, 23000, 24000, 25000, 11100], "base": "--nic=n", "bi": 0, "lines": ["--nic=QX", "--dcb", "--autovlan"], "ok": true, "kind": "L", "d": "[(c!\"lineno\", .int 7), (c!\"nic\", .str c!\"n\"), (c!\"dcb\", .bool false)]", "bsets": "[]", "rows": {"--nic=QX": "[(c!\"nic\", .str c!\"QX\")]", "--dcb": "[(c!\"dcb\", .bool true)]", "--autovlan": "REFUSED"}}, "119": {"cmd": "raid", "cls": "F13_Raid.cls F13_RaidData.cls", "vs": [11000], "base": "/x --device=1 --level=RAID1 raid.1 raid.2", "bi": 0, "lines": ["--device=QX", "--fstype=QX", "--level=RAID0", "--level=0", "--level=RAID1", "--level=1", "--level=RAID5", "--level=5", "--level=RAID6", "--level=6", "--level=RAID10", "--level=10", "--noformat", "--spares=42", "--useexisting", "--fsoptions=QX", "--bytes-per-inode=QX", "--fsprofile=QX", "--encrypted", "--passphrase=QX", "--escrowcert=QX", "--backuppassphrase", "--level=RAID4", "--level=4", "--label=QX", "--cipher=QX", "--mkfsoptions=QX", "--chunksize=42", "--luks-version=QX", "--pbkdf=QX", "--pbkdf-memory=42", "--pbkdf-time=42", "--pbkdf-iterations=42", "--bytes-per-inode=42"], "ok": true, "kind": "L", "d": "[(c!\"lineno\", .int 7), (c!\"device\", .int 1), (c!\"fstype\", .str c!\"\"), (c!\"level\", .str c!\"RAID1\"), (c!\"format\", .bool true), (c!\"spares\", .int 0), (c!\"preexist\", .bool false), (c!\"mountpoint\", .str c!\"/x\"), (c!\"members\", .list [c!\"raid.1\", c!\"raid.2\"]), (c!\"fsopts\", .str c!\"\"), (c!\"fsprofile\", .str c!\"\"), (c!\"encrypted\", .bool false), (c!\"passphrase\", .str c!\"\"), (c!\"escrowcert\", .str c!\"\"), (c!\"backuppassphrase\", .bool false), (c!\"mntpoint\", .list [c!\"/x\"]), (c!\"partitions\", .list [c!\"raid.1\", c!\"raid.2\"])]", "bsets": "[]", "rows": {"--device=QX": "REFUSED", "--fstype=QX": "[(c!\"fstype\", .str c!\"QX\")]", "--level=RAID0": "[(c!\"level\", .str c!\"RAID0\")]", "--level=0": "[(c!\"level\", .str c!\"RAID0\")]", "--level=RAID1": "[]", "--level=1": "[]", "--level=RAID5": "[(c!\"level\", .str c!\"RAID5\")]", "--level=5": "[(c!\"level\", .str c!\"RAID5\")]", "--level=RAID6": "[(c!\"level\", .str c!\"RAID6\")]", "--level=6": "[(c!\"level\", .str c!\"RAID6\")]", "--level=RAID10": "[(c!\"level\", .str c!\"RAID10\")]", "--level=10": "[(c!\"level\", .str c!\"RAID10\")]", "--noformat": "REFUSED", "--spares=42": "[(c!\"spares\", .int 42)]", "--useexisting": "REFUSED", "--fsoptions=QX": "[(c!\"fsopts\", .str c!\"QX\")]", "--bytes-per-inode=QX": "[(c!\"bytes_per_inode\", .str c!\"QX\")]", "--fsprofile=QX": "[(c!\"fsprofile\", .str c!\"QX\")]", "--encrypted": "[(c!\"encrypted\", .bool true)]", "--passphrase=QX": "[(c!\"passphrase\", .str c!\"QX\")]", "--escrowcert=QX": "[(c!\"escrowcert\", .str c!\"QX\")]", "--backuppassphrase": "[(c!\"backuppassphrase\", .bool true)]", "--level=RAID4": "[(c!\"level\", .str c!\"RAID4\")]", "--level=4": "[(c!\"level\", .str c!\"RAID4\")]", "--label=QX": "REFUSED", "--cipher=QX": "REFUSED", "--mkfsoptions=QX": "REFUSED", "--chunksize=42": "REFUSED", "--luks-version=QX": "REFUSED", "--pbkdf=QX": "REFUSED", "--pbkdf-memory=42": "REFUSED", "--pbkdf-time=42": "REFUSED", "--pbkdf-iterations=42": "REFUSED", "--bytes-per-inode=42": "[(c!\"bytes_per_inode\", .str c!\"42\")]"}}, "120": {"cmd": "raid", "cls": "F13_Raid.cls F13_RaidData.cls", "vs": [11000], "base": "/x --device=1 --noformat", "bi": 1, "lines": ["--fstype=ext4", "--label=QX"], "ok": true, "kind": "L", "d": "[(c!\"lineno\", .int 7), (c!\"device\", .int 1), (c!\"fstype\", .str c!\"\"), (c!\"level\", .str c!\"\"), (c!\"format\", .bool false), (c!\"spares\", .int 0), (c!\"preexist\", .bool true), (c!\"mountpoint\", .str c!\"/x\"), (c!\"members\", .list []), (c!\"fsopts\", .str c!\"\"), (c!\"fsprofile\", .str c!\"\"), (c!\"encrypted\", .bool false), (c!\"passphrase\", .str c!\"\"), (c!\"escrowcert\", .str c!\"\"), (c!\"backuppassphrase\", .bool false), (c!\"mntpoint\", .list [c!\"/x\"]), (c!\"partitions\", .list [])]", "bsets": "[]", "rows": {"--fstype=ext4": "[(c!\"fstype\", .str c!\"ext4\")]", "--label=QX": "REFUSED"}}, "121": {"cmd": "raid", "cls": "F13_Raid.cls F13_RaidData.cls", "vs": [11000], "base": "/x --device=1 --useexisting", "bi": 2, "lines": ["--fstype=ext4", "--label=QX"], "ok": true, "kind": "L", "d": "[(c!\"lineno\", .int 7), (c!\"device\", .int 1), (c!\"fstype\", .str c!\"\"), (c!\"level\", .str c!\"\"), (c!\"format\", .bool true), (c!\"spares\", .int 0), (c!\"preexist\", .bool true), (c!\"mountpoint\", .str c!\"/x\"), (c!\"members\", .list []), (c!\"fsopts\", .str c!\"\"), (c!\"fsprofile\", .str c!\"\"), (c!\"encrypted\", .bool false), (c!\"passphrase\", .str c!\"\"), (c!\"escrowcert\", .str c!\"\"), (c!\"backuppassphrase\", .bool false), (c!\"mntpoint\", .list [c!\"/x\"]), (c!\"partitions\", .list [])]", "bsets": "[]", "rows": {"--fstype=ext4": "[(c!\"fstype\", .str c!\"ext4\")]", "--label=QX": "REFUSED"}}, "122": {"cmd": "raid", "cls": "F13_Raid.cls F13_RaidData.cls", "vs": [11000], "base": "/x --device=1 --level=RAID1 raid.1 raid.2 raid.3", "bi": 3, "lines": ["--device=md7", "--device=data", "--level=0", "--level=RAID5", "--level=raid6", "--level=10", "--level=linear", "--spares=1", "--spares=2"], "ok": true, "kind": "L", "d": "[(c!\"lineno\", .int 7), (c!\"device\", .int 1), (c!\"fstype\", .str c!\"\"), (c!\"level\", .str c!\"RAID1\"), (c!\"format\", .bool true), (c!\"spares\", .int 0), (c!\"preexist\", .bool false), (c!\"mountpoint\", .str c!\"/x\"), (c!\"members\", .list [c!\"raid.1\", c!\"raid.2\", c!\"raid.3\"]), (c!\"fsopts\", .str c!\"\"), (c!\"fsprofile\", .str c!\"\"), (c!\"encrypted\", .bool false), (c!\"passphrase\", .str c!\"\"), (c!\"escrowcert\", .str c!\"\"), (c!\"backuppassphrase\", .bool false), (c!\"mntpoint\", .list [c!\"/x\"]), (c!\"partitions\", .list [c!\"raid.1\", c!\"raid.2\", c!\"raid.3\"])]", "bsets": "[]", "rows": {"--device=md7": "[(c!\"device\", .int 7)]", "--device=data": "REFUSED", "--level=0": "[(c!\"level\", .str c!\"RAID0\")]", "--level=RAID5": "[(c!\"level\", .str c!\"RAID5\")]", "--level=raid6": "[(c!\"level\", .str c!\"RAID6\")]", "--level=10": "[(c!\"level\", .str c!\"RAID10\")]", "--level=linear": "REFUSED", "--spares=1": "[(c!\"spares\", .int 1)]", "--spares=2": "[(c!\"spares\", .int 2)]"}}, "123": {"cmd": "repo", "cls": "F13_Repo.cls F13_RepoData.cls", "vs": [11000], "base": "--name=r --baseurl=b", "bi": 0, "lines": ["--name=QX", "--baseurl=QX", "--mirrorlist=QX", "--cost=42", "--excludepkgs=QX", "--includepkgs=QX", "--ignoregroups=yes", "--ignoregroups=off", "--proxy=QX", "--noverifyssl", "--install", "--metalink=QX", "--sslcacert=QX", "--sslclientcert=QX", "--sslclientkey=QX"], "ok": true, "kind": "L", "d": "[(c!\"lineno\", .int 7), (c!\"baseurl\", .str c!\"b\"), (c!\"mirrorlist\", .none), (c!\"name\", .str c!\"r\"), (c!\"cost\", .none), (c!\"includepkgs\", .list []), (c!\"excludepkgs\", .list []), (c!\"ignoregroups\", .none), (c!\"proxy\", .str c!\"\")]", "bsets": "[]", "rows": {"--name=QX": "[(c!\"name\", .str c!\"QX\")]", "--baseurl=QX": "[(c!\"baseurl\", .str c!\"QX\")]", "--mirrorlist=QX": "REFUSED", "--cost=42": "[(c!\"cost\", .int 42)]", "--excludepkgs=QX": "[(c!\"excludepkgs\", .list [c!\"QX\"])]", "--includepkgs=QX": "[(c!\"includepkgs\", .list [c!\"QX\"])]", "--ignoregroups=yes": "[(c!\"ignoregroups\", .bool true)]", "--ignoregroups=off": "[(c!\"ignoregroups\", .bool false)]", "--proxy=QX": "[(c!\"proxy\", .str c!\"QX\")]", "--noverifyssl": "REFUSED", "--install": "REFUSED", "--metalink=QX": "REFUSED", "--sslcacert=QX": "REFUSED", "--sslclientcert=QX": "REFUSED", "--sslclientkey=QX": "REFUSED"}}, "124": {"cmd": "repo", "cls": "F13_Repo.cls F13_RepoData.cls", "vs": [11000], "base": "--name=r --mirrorlist=m", "bi": 1, "lines": ["--baseurl=QX", "--metalink=QX"], "ok": true, "kind": "L", "d": "[(c!\"lineno\", .int 7), (c!\"baseurl\", .str c!\"\"), (c!\"mirrorlist\", .str c!\"m\"), (c!\"name\", .str c!\"r\"), (c!\"cost\", .none), (c!\"includepkgs\", .list []), (c!\"excludepkgs\", .list []), (c!\"ignoregroups\", .none), (c!\"proxy\", .str c!\"\")]", "bsets": "[]", "rows": {"--baseurl=QX": "REFUSED", "--metalink=QX": "REFUSED"}}, "125": {"cmd": "repo", "cls": "F13_Repo.cls F13_RepoData.cls", "vs": [11000], "base": "--name=r --metalink=m", "bi": 2, "lines": ["--mirrorlist=QX"], "ok": false}, "126": {"cmd": "sshpw", "cls": "F13_SshPw.cls F13_SshPwData.cls", "vs": [11000, 12000, 13000, 14000, 15000, 16000, 17000, 18000, 19000, 20000, 21000, 11100, 19100], "base": "--username=u p", "bi": 0, "lines": ["--username=QX", "--iscrypted", "--plaintext", "--lock", "--sshkey"], "ok": true, "kind": "L", "d": "[(c!\"lineno\", .int 7), (c!\"username\", .str c!\"u\"), (c!\"isCrypted\", .bool false), (c!\"password\", .str c!\"p\"), (c!\"lock\", .bool false)]", "bsets": "[]", "rows": {"--username=QX": "[(c!\"username\", .str c!\"QX\")]", "--iscrypted": "[(c!\"isCrypted\", .bool true)]", "--plaintext": "[]", "--lock": "[(c!\"lock\", .bool true)]", "--sshkey": "REFUSED"}}, "127": {"cmd": "url", "cls": "F13_Url.cls", "vs": [11000], "base": "--url=U", "bi": 0, "lines": ["--url=QX", "--proxy=QX", "--noverifyssl", "--mirrorlist=QX", "--metalink=QX", "--sslcacert=QX", "--sslclientcert=QX", "--sslclientkey=QX"], "ok": true, "kind": "P", "d": "[(c!\"url\", .str c!\"U\"), (c!\"proxy\", .str c!\"\")]", "bsets": "[(c!\"url\", .str c!\"U\")]", "rows": {"--url=QX": "[(c!\"url\", .str c!\"QX\")]", "--proxy=QX": "[(c!\"proxy\", .str c!\"QX\")]", "--noverifyssl": "REFUSED", "--mirrorlist=QX": "REFUSED", "--metalink=QX": "REFUSED", "--sslcacert=QX": "REFUSED", "--sslclientcert=QX": "REFUSED", "--sslclientkey=QX": "REFUSED"}}, "128": {"cmd": "url", "cls": "F13_Url.cls", "vs": [11000], "base": "--mirrorlist=M", "bi": 1, "lines": ["--proxy=QX", "--metalink=QX", "--url=QX"], "ok": false}, "129": {"cmd": "url", "cls": "F13_Url.cls", "vs": [11000], "base": "--metalink=M", "bi": 2, "lines": ["--mirrorlist=QX"], "ok": false}, "130": {"cmd": "bootloader", "cls": "F14_Bootloader.cls", "vs": [12000], "base": "", "bi": 0, "lines": ["--append=QX", "--location=mbr", "--location=partition", "--location=none", "--location=boot", "--lba32", "--password=QX", "--md5pass=QX", "--upgrade", "--driveorder=QX", "--timeout=42", "--default=QX", "--iscrypted", "--boot-drive=QX", "--leavebootorder", "--extlinux", "--disabled", "--nombr", "--linear", "--nolinear", "--useLilo", "--hvargs=QX"], "ok": true, "kind": "P", "d": "[(c!\"driveorder\", .list []), (c!\"appendLine\", .str c!\"\"), (c!\"location\", .str c!\"mbr\"), (c!\"md5pass\", .str c!\"\"), (c!\"password\", .str c!\"\"), (c!\"upgrade\", .bool false), (c!\"timeout\", .none), (c!\"default\", .str c!\"\")]", "bsets": "[(c!\"location\", .str c!\"mbr\")]", "rows": {"--append=QX": "[(c!\"appendLine\", .str c!\"QX\")]", "--location=mbr": "[]", "--location=partition": "[(c!\"location\", .str c!\"partition\")]", "--location=none": "[(c!\"location\", .str c!\"none\")]", "--location=boot": "[(c!\"location\", .str c!\"boot\")]", "--lba32": "REFUSED", "--password=QX": "[(c!\"password\", .str c!\"QX\")]", "--md5pass=QX": "[(c!\"md5pass\", .str c!\"QX\")]", "--upgrade": "[(c!\"upgrade\", .bool true)]", "--driveorder=QX": "[(c!\"driveorder\", .list [c!\"QX\"])]", "--timeout=42": "[(c!\"timeout\", .int 42)]", "--default=QX": "[(c!\"default\", .str c!\"QX\")]", "--iscrypted": "REFUSED", "--boot-drive=QX": "REFUSED", "--leavebootorder": "REFUSED", "--extlinux": "REFUSED", "--disabled": "REFUSED", "--nombr": "REFUSED", "--linear": "REFUSED", "--nolinear": "REFUSED", "--useLilo": "REFUSED", "--hvargs=QX": "REFUSED"}}, "131": {"cmd": "driverdisk", "cls": "F14_DriverDisk.cls F14_DriverDiskData.cls", "vs": [12000, 13000, 14000, 15000, 16000, 17000, 18000, 19000, 20000, 21000, 22000, 23000, 24000, 25000, 26000, 27000, 30000, 31000, 32000, 33000, 34000, 19100, 26100], "base": "d", "bi": 0, "lines": ["--source=QX", "--type=QX", "--biospart=QX"], "ok": true, "kind": "L", "d": "[(c!\"lineno\", .int 7), (c!\"partition\", .str c!\"d\"), (c!\"source\", .str c!\"\"), (c!\"biospart\", .str c!\"\")]", "bsets": "[]", "rows": {"--source=QX": "REFUSED", "--type=QX": "REFUSED", "--biospart=QX": "REFUSED"}}, "132": {"cmd": "driverdisk", "cls": "F14_DriverDisk.cls F14_DriverDiskData.cls", "vs": [12000, 13000, 14000, 15000, 16000, 17000, 18000, 19000, 20000, 21000, 22000, 23000, 24000, 25000, 26000, 27000, 30000, 31000, 32000, 33000, 34000, 19100, 26100], "base": "--source=s", "bi": 1, "lines": [], "ok": true, "kind": "L", "d": "[(c!\"lineno\", .int 7), (c!\"partition\", .list []), (c!\"source\", .str c!\"s\"), (c!\"biospart\", .str c!\"\")]", "bsets": "[]", "rows": {}}, "133": {"cmd": "driverdisk", "cls": "F14_DriverDisk.cls F14_DriverDiskData.cls", "vs": [12000, 13000, 14000, 15000, 16000, 17000, 18000, 19000, 20000, 21000, 22000, 23000, 24000, 25000, 26000, 27000, 30000, 31000, 32000, 33000, 34000, 19100, 26100], "base": "--biospart=b", "bi": 2, "lines": [], "ok": true, "kind": "L", "d": "[(c!\"lineno\", .int 7), (c!\"partition\", .list []), (c!\"source\", .str c!\"\"), (c!\"biospart\", .str c!\"b\")]", "bsets": "[]", "rows": {}}, "134": {"cmd": "firewall", "cls": "F14_Firewall.cls", "vs": [12000, 13000, 14000, 15000, 16000, 17000], "base": "", "bi": 0, "lines": ["--disable", "--disabled", "--enable", "--enabled", "--port=QX:tcp", "--trust=QX", "--service=QX", "--ftp", "--http", "--smtp", "--ssh", "--telnet=QX", "--remove-service=QX", "--use-system-defaults", "--telnet", "--high=QX", "--medium=QX"], "ok": true, "kind": "P", "d": "[(c!\"enabled\", .bool true), (c!\"ports\", .list []), (c!\"trusts\", .list []), (c!\"services\", .list [])]", "bsets": "[(c!\"enabled\", .bool true)]", "rows": {"--disable": "[(c!\"enabled\", .bool false)]", "--disabled": "[(c!\"enabled\", .bool false)]", "--enable": "[]", "--enabled": "[]", "--port=QX:tcp": "[(c!\"ports\", .list [c!\"QX:tcp\"])]", "--trust=QX": "[(c!\"trusts\", .list [c!\"QX\"])]", "--service=QX": "[(c!\"services\", .list [c!\"QX\"])]", "--ftp": "[(c!\"services\", .list [c!\"ftp\"])]", "--http": "[(c!\"services\", .list [c!\"http\"])]", "--smtp": "[(c!\"services\", .list [c!\"smtp\"])]", "--ssh": "[(c!\"services\", .list [c!\"ssh\"])]", "--telnet=QX": "REFUSED", "--remove-service=QX": "REFUSED", "--use-system-defaults": "REFUSED", "--telnet": "REFUSED", "--high=QX": "REFUSED", "--medium=QX": "REFUSED"}}, "135": {"cmd": "ignoredisk", "cls": "F14_IgnoreDisk.cls", "vs": [12000, 13000, 14000, 15000, 16000, 17000, 18000, 19000, 20000, 21000, 22000, 23000, 24000, 25000, 26000, 19100], "base": "--drives=a", "bi": 0, "lines": ["--drives=QX", "--only-use=QX", "--interactive"], "ok": true, "kind": "P", "d": "[(c!\"ignoredisk\", .list [c!\"a\"]), (c!\"onlyuse\", .list []), (c!\"interactive\", .bool false)]", "bsets": "[(c!\"ignoredisk\", .list [c!\"a\"])]", "rows": {"--drives=QX": "[(c!\"ignoredisk\", .list [c!\"QX\"])]", "--only-use=QX": "REFUSED", "--interactive": "REFUSED"}}, "136": {"cmd": "ignoredisk", "cls": "F14_IgnoreDisk.cls", "vs": [12000, 13000, 14000, 15000, 16000, 17000, 18000, 19000, 20000, 21000, 22000, 23000, 24000, 25000, 26000, 19100], "base": "--only-use=a", "bi": 1, "lines": ["--drives=QX", "--only-use=QX"], "ok": true, "kind": "P", "d": "[(c!\"ignoredisk\", .list []), (c!\"onlyuse\", .list [c!\"a\"]), (c!\"interactive\", .bool false)]", "bsets": "[(c!\"onlyuse\", .list [c!\"a\"])]", "rows": {"--drives=QX": "REFUSED", "--only-use=QX": "[(c!\"onlyuse\", .list [c!\"QX\"])]"}}, "137": {"cmd": "ignoredisk", "cls": "F14_IgnoreDisk.cls", "vs": [12000, 13000, 14000, 15000, 16000, 17000, 18000, 19000, 20000, 21000, 22000, 23000, 24000, 25000, 26000, 19100], "base": "--interactive", "bi": 2, "lines": ["--only-use=QX"], "ok": true, "kind": "P", "d": "[(c!\"ignoredisk\", .list []), (c!\"onlyuse\", .list []), (c!\"interactive\", .bool true)]", "bsets": "[(c!\"interactive\", .bool true)]", "rows": {"--only-use=QX": "REFUSED"}}, "138": {"cmd": "logvol", "cls": "F14_LogVol.cls F14_LogVolData.cls", "vs": [12000], "base": "/x --name=n --vgname=g --size=1", "bi": 0, "lines": ["--fstype=QX", "--grow", "--maxsize=42", "--name=QX", "--noformat", "--percent=42", "--recommended", "--size=42", "--useexisting", "--vgname=QX", "--fsoptions=QX", "--bytes-per-inode=QX", "--fsprofile=QX", "--encrypted", "--passphrase=QX", "--escrowcert=QX", "--backuppassphrase", "--label=QX", "--resize", "--hibernation", "--cipher=QX", "--thinpool", "--thin", "--poolname=QX", "--chunksize=42", "--metadatasize=42", "--profile=QX", "--cachesize=42", "--cachemode=QX", "--cachepvs=QX", "--mkfsoptions=QX", "--luks-version=QX", "--pbkdf=QX", "--pbkdf-memory=42", "--pbkdf-time=42", "--pbkdf-iterations=42", "--bytes-per-inode=42"], "ok": true, "kind": "L", "d": "[(c!\"lineno\", .int 7), (c!\"fstype\", .str c!\"\"), (c!\"grow\", .bool false), (c!\"maxSizeMB\", .int 0), (c!\"name\", .str c!\"n\"), (c!\"format\", .bool true), (c!\"percent\", .int 0), (c!\"recommended\", .bool false), (c!\"size\", .int 1), (c!\"preexist\", .bool false), (c!\"vgname\", .str c!\"g\"), (c!\"mountpoint\", .str c!\"/x\"), (c!\"fsopts\", .str c!\"\"), (c!\"fsprofile\", .str c!\"\"), (c!\"encrypted\", .bool false), (c!\"passphrase\", .str c!\"\"), (c!\"escrowcert\", .str c!\"\"), (c!\"backuppassphrase\", .bool false), (c!\"mntpoint\", .list [c!\"/x\"])]", "bsets": "[]", "rows": {"--fstype=QX": "[(c!\"fstype\", .str c!\"QX\")]", "--grow": "[(c!\"grow\", .bool true)]", "--maxsize=42": "[(c!\"maxSizeMB\", .int 42)]", "--name=QX": "[(c!\"name\", .str c!\"QX\")]", "--noformat": "[(c!\"format\", .bool false), (c!\"preexist\", .bool true)]", "--percent=42": "[(c!\"percent\", .int 42)]", "--recommended": "[(c!\"recommended\", .bool true)]", "--size=42": "[(c!\"size\", .int 42)]", "--useexisting": "[(c!\"preexist\", .bool true)]", "--vgname=QX": "[(c!\"vgname\", .str c!\"QX\")]", "--fsoptions=QX": "[(c!\"fsopts\", .str c!\"QX\")]", "--bytes-per-inode=QX": "REFUSED", "--fsprofile=QX": "[(c!\"fsprofile\", .str c!\"QX\")]", "--encrypted": "[(c!\"encrypted\", .bool true)]", "--passphrase=QX": "[(c!\"passphrase\", .str c!\"QX\")]", "--escrowcert=QX": "[(c!\"escrowcert\", .str c!\"QX\")]", "--backuppassphrase": "[(c!\"backuppassphrase\", .bool true)]", "--label=QX": "REFUSED", "--resize": "REFUSED", "--hibernation": "REFUSED", "--cipher=QX": "REFUSED", "--thinpool": "REFUSED", "--thin": "REFUSED", "--poolname=QX": "REFUSED", "--chunksize=42": "REFUSED", "--metadatasize=42": "REFUSED", "--profile=QX": "REFUSED", "--cachesize=42": "REFUSED", "--cachemode=QX": "REFUSED", "--cachepvs=QX": "REFUSED", "--mkfsoptions=QX": "REFUSED", "--luks-version=QX": "REFUSED", "--pbkdf=QX": "REFUSED", "--pbkdf-memory=42": "REFUSED", "--pbkdf-time=42": "REFUSED", "--pbkdf-iterations=42": "REFUSED", "--bytes-per-inode=42": "REFUSED"}}, "139": {"cmd": "logvol", "cls": "F14_LogVol.cls F14_LogVolData.cls", "vs": [12000], "base": "/x --name=n --vgname=g --useexisting", "bi": 1, "lines": ["--size=42", "--resize", "--noformat", "--fstype=ext4"], "ok": true, "kind": "L", "d": "[(c!\"lineno\", .int 7), (c!\"fstype\", .str c!\"\"), (c!\"grow\", .bool false), (c!\"maxSizeMB\", .int 0), (c!\"name\", .str c!\"n\"), (c!\"format\", .bool true), (c!\"percent\", .int 0), (c!\"recommended\", .bool false), (c!\"size\", .none), (c!\"preexist\", .bool true), (c!\"vgname\", .str c!\"g\"), (c!\"mountpoint\", .str c!\"/x\"), (c!\"fsopts\", .str c!\"\"), (c!\"fsprofile\", .str c!\"\"), (c!\"encrypted\", .bool false), (c!\"passphrase\", .str c!\"\"), (c!\"escrowcert\", .str c!\"\"), (c!\"backuppassphrase\", .bool false), (c!\"mntpoint\", .list [c!\"/x\"])]", "bsets": "[]", "rows": {"--size=42": "[(c!\"size\", .int 42)]", "--resize": "REFUSED", "--noformat": "[(c!\"format\", .bool false)]", "--fstype=ext4": "[(c!\"fstype\", .str c!\"ext4\")]"}}, "140": {"cmd": "logvol", "cls": "F14_LogVol.cls F14_LogVolData.cls", "vs": [12000], "base": "/x --name=n --vgname=g", "bi": 2, "lines": ["--percent=42", "--useexisting", "--noformat"], "ok": true, "kind": "L", "d": "[(c!\"lineno\", .int 7), (c!\"fstype\", .str c!\"\"), (c!\"grow\", .bool false), (c!\"maxSizeMB\", .int 0), (c!\"name\", .str c!\"n\"), (c!\"format\", .bool true), (c!\"percent\", .int 0), (c!\"recommended\", .bool false), (c!\"size\", .none), (c!\"preexist\", .bool false), (c!\"vgname\", .str c!\"g\"), (c!\"mountpoint\", .str c!\"/x\"), (c!\"fsopts\", .str c!\"\"), (c!\"fsprofile\", .str c!\"\"), (c!\"encrypted\", .bool false), (c!\"passphrase\", .str c!\"\"), (c!\"escrowcert\", .str c!\"\"), (c!\"backuppassphrase\", .bool false), (c!\"mntpoint\", .list [c!\"/x\"])]", "bsets": "[]", "rows": {"--percent=42": "[(c!\"percent\", .int 42)]", "--useexisting": "[(c!\"preexist\", .bool true)]", "--noformat": "[(c!\"format\", .bool false), (c!\"preexist\", .bool true)]"}}, "141": {"cmd": "logvol", "cls": "F14_LogVol.cls F14_LogVolData.cls", "vs": [12000], "base": "/x --name=n --vgname=g --size=1 --poolname=p", "bi": 3, "lines": ["--thin", "--thinpool", "--label=QX"], "ok": false}, "142": {"cmd": "logvol", "cls": "F14_LogVol.cls F14_LogVolData.cls", "vs": [12000], "base": "none --name=n --vgname=g --size=1 --thinpool", "bi": 4, "lines": ["--chunksize=42", "--metadatasize=42", "--profile=QX", "--grow"], "ok": false}, "143": {"cmd": "logvol", "cls": "F14_LogVol.cls F14_LogVolData.cls", "vs": [12000], "base": "/x --name=n --vgname=g --size=1 --cachepvs=a --cachesize=5", "bi": 5, "lines": ["--cachemode=writeback", "--cachemode=writethrough"], "ok": false}, "144": {"cmd": "part", "cls": "F14_Partition.cls F14_PartData.cls", "vs": [12000, 13000], "base": "/x --size=1", "bi": 0, "lines": ["--active", "--asprimary", "--start=42", "--end=42", "--fstype=QX", "--type=QX", "--grow", "--maxsize=42", "--noformat", "--onbiosdisk=QX", "--ondisk=QX", "--ondrive=QX", "--onpart=QX", "--usepart=QX", "--recommended", "--size=42", "--fsoptions=QX", "--label=QX", "--bytes-per-inode=QX", "--fsprofile=QX", "--encrypted", "--passphrase=QX", "--start=QX", "--end=QX", "--escrowcert=QX", "--backuppassphrase", "--resize", "--hibernation", "--cipher=QX", "--mkfsoptions=QX", "--luks-version=QX", "--pbkdf=QX", "--pbkdf-memory=42", "--pbkdf-time=42", "--pbkdf-iterations=42", "--bytes-per-inode=42"], "ok": true, "kind": "L", "d": "[(c!\"lineno\", .int 7), (c!\"active\", .bool false), (c!\"primOnly\", .bool false), (c!\"fstype\", .str c!\"\"), (c!\"grow\", .bool false), (c!\"maxSizeMB\", .int 0), (c!\"format\", .bool true), (c!\"onbiosdisk\", .str c!\"\"), (c!\"disk\", .str c!\"\"), (c!\"onPart\", .str c!\"\"), (c!\"recommended\", .bool false), (c!\"size\", .int 1), (c!\"mountpoint\", .str c!\"/x\"), (c!\"fsopts\", .str c!\"\"), (c!\"label\", .str c!\"\"), (c!\"fsprofile\", .str c!\"\"), (c!\"encrypted\", .bool false), (c!\"passphrase\", .str c!\"\"), (c!\"escrowcert\", .str c!\"\"), (c!\"backuppassphrase\", .bool false), (c!\"mntpoint\", .list [c!\"/x\"])]", "bsets": "[]", "rows": {"--active": "[(c!\"active\", .bool true)]", "--asprimary": "[(c!\"primOnly\", .bool true)]", "--start=42": "REFUSED", "--end=42": "REFUSED", "--fstype=QX": "[(c!\"fstype\", .str c!\"QX\")]", "--type=QX": "[(c!\"fstype\", .str c!\"QX\")]", "--grow": "[(c!\"grow\", .bool true)]", "--maxsize=42": "[(c!\"maxSizeMB\", .int 42)]", "--noformat": "[(c!\"format\", .bool false)]", "--onbiosdisk=QX": "[(c!\"onbiosdisk\", .str c!\"QX\")]", "--ondisk=QX": "[(c!\"disk\", .str c!\"QX\")]", "--ondrive=QX": "[(c!\"disk\", .str c!\"QX\")]", "--onpart=QX": "[(c!\"onPart\", .str c!\"QX\")]", "--usepart=QX": "[(c!\"onPart\", .str c!\"QX\")]", "--recommended": "[(c!\"recommended\", .bool true)]", "--size=42": "[(c!\"size\", .int 42)]", "--fsoptions=QX": "[(c!\"fsopts\", .str c!\"QX\")]", "--label=QX": "[(c!\"label\", .str c!\"QX\")]", "--bytes-per-inode=QX": "REFUSED", "--fsprofile=QX": "[(c!\"fsprofile\", .str c!\"QX\")]", "--encrypted": "[(c!\"encrypted\", .bool true)]", "--passphrase=QX": "[(c!\"passphrase\", .str c!\"QX\")]", "--start=QX": "REFUSED", "--end=QX": "REFUSED", "--escrowcert=QX": "[(c!\"escrowcert\", .str c!\"QX\")]", "--backuppassphrase": "[(c!\"backuppassphrase\", .bool true)]", "--resize": "REFUSED", "--hibernation": "REFUSED", "--cipher=QX": "REFUSED", "--mkfsoptions=QX": "REFUSED", "--luks-version=QX": "REFUSED", "--pbkdf=QX": "REFUSED", "--pbkdf-memory=42": "REFUSED", "--pbkdf-time=42": "REFUSED", "--pbkdf-iterations=42": "REFUSED", "--bytes-per-inode=42": "REFUSED"}}, "145": {"cmd": "part", "cls": "F14_Partition.cls F14_PartData.cls", "vs": [12000, 13000], "base": "/x --onpart=sda1 --size=1", "bi": 1, "lines": ["--resize", "--noformat"], "ok": true, "kind": "L", "d": "[(c!\"lineno\", .int 7), (c!\"active\", .bool false), (c!\"primOnly\", .bool false), (c!\"fstype\", .str c!\"\"), (c!\"grow\", .bool false), (c!\"maxSizeMB\", .int 0), (c!\"format\", .bool true), (c!\"onbiosdisk\", .str c!\"\"), (c!\"disk\", .str c!\"\"), (c!\"onPart\", .str c!\"sda1\"), (c!\"recommended\", .bool false), (c!\"size\", .int 1), (c!\"mountpoint\", .str c!\"/x\"), (c!\"fsopts\", .str c!\"\"), (c!\"label\", .str c!\"\"), (c!\"fsprofile\", .str c!\"\"), (c!\"encrypted\", .bool false), (c!\"passphrase\", .str c!\"\"), (c!\"escrowcert\", .str c!\"\"), (c!\"backuppassphrase\", .bool false), (c!\"mntpoint\", .list [c!\"/x\"])]", "bsets": "[]", "rows": {"--resize": "REFUSED", "--noformat": "[(c!\"format\", .bool false)]"}}, "146": {"cmd": "partition", "cls": "F14_Partition.cls F14_PartData.cls", "vs": [12000, 13000], "base": "/x --size=1", "bi": 0, "lines": ["--active", "--asprimary", "--start=42", "--end=42", "--fstype=QX", "--type=QX", "--grow", "--maxsize=42", "--noformat", "--onbiosdisk=QX", "--ondisk=QX", "--ondrive=QX", "--onpart=QX", "--usepart=QX", "--recommended", "--size=42", "--fsoptions=QX", "--label=QX", "--bytes-per-inode=QX", "--fsprofile=QX", "--encrypted", "--passphrase=QX", "--start=QX", "--end=QX", "--escrowcert=QX", "--backuppassphrase", "--resize", "--hibernation", "--cipher=QX", "--mkfsoptions=QX", "--luks-version=QX", "--pbkdf=QX", "--pbkdf-memory=42", "--pbkdf-time=42", "--pbkdf-iterations=42", "--bytes-per-inode=42"], "ok": true, "kind": "L", "d": "[(c!\"lineno\", .int 7), (c!\"active\", .bool false), (c!\"primOnly\", .bool false), (c!\"fstype\", .str c!\"\"), (c!\"grow\", .bool false), (c!\"maxSizeMB\", .int 0), (c!\"format\", .bool true), (c!\"onbiosdisk\", .str c!\"\"), (c!\"disk\", .str c!\"\"), (c!\"onPart\", .str c!\"\"), (c!\"recommended\", .bool false), (c!\"size\", .int 1), (c!\"mountpoint\", .str c!\"/x\"), (c!\"fsopts\", .str c!\"\"), (c!\"label\", .str c!\"\"), (c!\"fsprofile\", .str c!\"\"), (c!\"encrypted\", .bool false), (c!\"passphrase\", .str c!\"\"), (c!\"escrowcert\", .str c!\"\"), (c!\"backuppassphrase\", .bool false), (c!\"mntpoint\", .list [c!\"/x\"])]", "bsets": "[]", "rows": {"--active": "[(c!\"active\", .bool true)]", "--asprimary": "[(c!\"primOnly\", .bool true)]", "--start=42": "REFUSED", "--end=42": "REFUSED", "--fstype=QX": "[(c!\"fstype\", .str c!\"QX\")]", "--type=QX": "[(c!\"fstype\", .str c!\"QX\")]", "--grow": "[(c!\"grow\", .bool true)]", "--maxsize=42": "[(c!\"maxSizeMB\", .int 42)]", "--noformat": "[(c!\"format\", .bool false)]", "--onbiosdisk=QX": "[(c!\"onbiosdisk\", .str c!\"QX\")]", "--ondisk=QX": "[(c!\"disk\", .str c!\"QX\")]", "--ondrive=QX": "[(c!\"disk\", .str c!\"QX\")]", "--onpart=QX": "[(c!\"onPart\", .str c!\"QX\")]", "--usepart=QX": "[(c!\"onPart\", .str c!\"QX\")]", "--recommended": "[(c!\"recommended\", .bool true)]", "--size=42": "[(c!\"size\", .int 42)]", "--fsoptions=QX": "[(c!\"fsopts\", .str c!\"QX\")]", "--label=QX": "[(c!\"label\", .str c!\"QX\")]", "--bytes-per-inode=QX": "REFUSED", "--fsprofile=QX": "[(c!\"fsprofile\", .str c!\"QX\")]", "--encrypted": "[(c!\"encrypted\", .bool true)]", "--passphrase=QX": "[(c!\"passphrase\", .str c!\"QX\")]", "--start=QX": "REFUSED", "--end=QX": "REFUSED", "--escrowcert=QX": "[(c!\"escrowcert\", .str c!\"QX\")]", "--backuppassphrase": "[(c!\"backuppassphrase\", .bool true)]", "--resize": "REFUSED", "--hibernation": "REFUSED", "--cipher=QX": "REFUSED", "--mkfsoptions=QX": "REFUSED", "--luks-version=QX": "REFUSED", "--pbkdf=QX": "REFUSED", "--pbkdf-memory=42": "REFUSED", "--pbkdf-time=42": "REFUSED", "--pbkdf-iterations=42": "REFUSED", "--bytes-per-inode=42": "REFUSED"}}, "147": {"cmd": "partition", "cls": "F14_Partition.cls F14_PartData.cls", "vs": [12000, 13000], "base": "/x --onpart=sda1 --size=1", "bi": 1, "lines": ["--resize", "--noformat"], "ok": true, "kind": "L", "d": "[(c!\"lineno\", .int 7), (c!\"active\", .bool false), (c!\"primOnly\", .bool false), (c!\"fstype\", .str c!\"\"), (c!\"grow\", .bool false), (c!\"maxSizeMB\", .int 0), (c!\"format\", .bool true), (c!\"onbiosdisk\", .str c!\"\"), (c!\"disk\", .str c!\"\"), (c!\"onPart\", .str c!\"sda1\"), (c!\"recommended\", .bool false), (c!\"size\", .int 1), (c!\"mountpoint\", .str c!\"/x\"), (c!\"fsopts\", .str c!\"\"), (c!\"label\", .str c!\"\"), (c!\"fsprofile\", .str c!\"\"), (c!\"encrypted\", .bool false), (c!\"passphrase\", .str c!\"\"), (c!\"escrowcert\", .str c!\"\"), (c!\"backuppassphrase\", .bool false), (c!\"mntpoint\", .list [c!\"/x\"])]", "bsets": "[]", "rows": {"--resize": "REFUSED", "--noformat": "[(c!\"format\", .bool false)]"}}, "148": {"cmd": "raid", "cls": "F14_Raid.cls F14_RaidData.cls", "vs": [12000], "base": "/x --device=1 --level=RAID1 raid.1 raid.2", "bi": 0, "lines": ["--device=QX", "--fstype=QX", "--level=RAID0", "--level=0", "--level=RAID1", "--level=1", "--level=RAID5", "--level=5", "--level=RAID6", "--level=6", "--level=RAID10", "--level=10", "--noformat", "--spares=42", "--useexisting", "--fsoptions=QX", "--bytes-per-inode=QX", "--fsprofile=QX", "--encrypted", "--passphrase=QX", "--escrowcert=QX", "--backuppassphrase", "--level=RAID4", "--level=4", "--label=QX", "--cipher=QX", "--mkfsoptions=QX", "--chunksize=42", "--luks-version=QX", "--pbkdf=QX", "--pbkdf-memory=42", "--pbkdf-time=42", "--pbkdf-iterations=42", "--bytes-per-inode=42"], "ok": true, "kind": "L", "d": "[(c!\"lineno\", .int 7), (c!\"device\", .int 1), (c!\"fstype\", .str c!\"\"), (c!\"level\", .str c!\"RAID1\"), (c!\"format\", .bool true), (c!\"spares\", .int 0), (c!\"preexist\", .bool false), (c!\"mountpoint\", .str c!\"/x\"), (c!\"members\", .list [c!\"raid.1\", c!\"raid.2\"]), (c!\"fsopts\", .str c!\"\"), (c!\"fsprofile\", .str c!\"\"), (c!\"encrypted\", .bool false), (c!\"passphrase\", .str c!\"\"), (c!\"escrowcert\", .str c!\"\"), (c!\"backuppassphrase\", .bool false), (c!\"mntpoint\", .list [c!\"/x\"]), (c!\"partitions\", .list [c!\"raid.1\", c!\"raid.2\"])]", "bsets": "[]", "rows": {"--device=QX": "REFUSED", "--fstype=QX": "[(c!\"fstype\", .str c!\"QX\")]", "--level=RAID0": "[(c!\"level\", .str c!\"RAID0\")]", "--level=0": "[(c!\"level\", .str c!\"RAID0\")]", "--level=RAID1": "[]", "--level=1": "[]", "--level=RAID5": "[(c!\"level\", .str c!\"RAID5\")]", "--level=5": "[(c!\"level\", .str c!\"RAID5\")]", "--level=RAID6": "[(c!\"level\", .str c!\"RAID6\")]", "--level=6": "[(c!\"level\", .str c!\"RAID6\")]", "--level=RAID10": "[(c!\"level\", .str c!\"RAID10\")]", "--level=10": "[(c!\"level\", .str c!\"RAID10\")]", "--noformat": "REFUSED", "--spares=42": "[(c!\"spares\", .int 42)]", "--useexisting": "REFUSED", "--fsoptions=QX": "[(c!\"fsopts\", .str c!\"QX\")]", "--bytes-per-inode=QX": "REFUSED", "--fsprofile=QX": "[(c!\"fsprofile\", .str c!\"QX\")]", "--encrypted": "[(c!\"encrypted\", .bool true)]", "--passphrase=QX": "[(c!\"passphrase\", .str c!\"QX\")]", "--escrowcert=QX": "[(c!\"escrowcert\", .str c!\"QX\")]", "--backuppassphrase": "[(c!\"backuppassphrase\", .bool true)]", "--level=RAID4": "[(c!\"level\", .str c!\"RAID4\")]", "--level=4": "[(c!\"level\", .str c!\"RAID4\")]", "--label=QX": "REFUSED", "--cipher=QX": "REFUSED", "--mkfsoptions=QX": "REFUSED", "--chunksize=42": "REFUSED", "--luks-version=QX": "REFUSED", "--pbkdf=QX": "REFUSED", "--pbkdf-memory=42": "REFUSED", "--pbkdf-time=42": "REFUSED", "--pbkdf-iterations=42": "REFUSED", "--bytes-per-inode=42": "REFUSED"}}, "149": {"cmd": "raid", "cls": "F14_Raid.cls F14_RaidData.cls", "vs": [12000], "base": "/x --device=1 --noformat", "bi": 1, "lines": ["--fstype=ext4", "--label=QX"], "ok": true, "kind": "L", "d": "[(c!\"lineno\", .int 7), (c!\"device\", .int 1), (c!\"fstype\", .str c!\"\"), (c!\"level\", .str c!\"\"), (c!\"format\", .bool false), (c!\"spares\", .int 0), (c!\"preexist\", .bool true), (c!\"mountpoint\", .str c!\"/x\"), (c!\"members\", .list []), (c!\"fsopts\", .str c!\"\"), (c!\"fsprofile\", .str c!\"\"), (c!\"encrypted\", .bool false), (c!\"passphrase\", .str c!\"\"), (c!\"escrowcert\", .str c!\"\"), (c!\"backuppassphrase\", .bool false), (c!\"mntpoint\", .list [c!\"/x\"]), (c!\"partitions\", .list [])]", "bsets": "[]", "rows": {"--fstype=ext4": "[(c!\"fstype\", .str c!\"ext4\")]", "--label=QX": "REFUSED"}}, "150": {"cmd": "raid", "cls": "F14_Raid.cls F14_RaidData.cls", "vs": [12000], "base": "/x --device=1 --useexisting", "bi": 2, "lines": ["--fstype=ext4", "--label=QX"], "ok": true, "kind": "L", "d": "[(c!\"lineno\", .int 7), (c!\"device\", .int 1), (c!\"fstype\", .str c!\"\"), (c!\"level\", .str c!\"\"), (c!\"format\", .bool true), (c!\"spares\", .int 0), (c!\"preexist\", .bool true), (c!\"mountpoint\", .str c!\"/x\"), (c!\"members\", .list []), (c!\"fsopts\", .str c!\"\"), (c!\"fsprofile\", .str c!\"\"), (c!\"encrypted\", .bool false), (c!\"passphrase\", .str c!\"\"), (c!\"escrowcert\", .str c!\"\"), (c!\"backuppassphrase\", .bool false), (c!\"mntpoint\", .list [c!\"/x\"]), (c!\"partitions\", .list [])]", "bsets": "[]", "rows": {"--fstype=ext4": "[(c!\"fstype\", .str c!\"ext4\")]", "--label=QX": "REFUSED"}}, "151": {"cmd": "raid", "cls": "F14_Raid.cls F14_RaidData.cls", "vs": [12000], "base": "/x --device=1 --level=RAID1 raid.1 raid.2 raid.3", "bi": 3, "lines": ["--device=md7", "--device=data", "--level=0", "--level=RAID5", "--level=raid6", "--level=10", "--level=linear", "--spares=1", "--spares=2"], "ok": true, "kind": "L", "d": "[(c!\"lineno\", .int 7), (c!\"device\", .int 1), (c!\"fstype\", .str c!\"\"), (c!\"level\", .str c!\"RAID1\"), (c!\"format\", .bool true), (c!\"spares\", .int 0), (c!\"preexist\", .bool false), (c!\"mountpoint\", .str c!\"/x\"), (c!\"members\", .list [c!\"raid.1\", c!\"raid.2\", c!\"raid.3\"]), (c!\"fsopts\", .str c!\"\"), (c!\"fsprofile\", .str c!\"\"), (c!\"encrypted\", .bool false), (c!\"passphrase\", .str c!\"\"), (c!\"escrowcert\", .str c!\"\"), (c!\"backuppassphrase\", .bool false), (c!\"mntpoint\", .list [c!\"/x\"]), (c!\"partitions\", .list [c!\"raid.1\", c!\"raid.2\", c!\"raid.3\"])]", "bsets": "[]", "rows": {"--device=md7": "[(c!\"device\", .int 7)]", "--device=data": "REFUSED", "--level=0": "[(c!\"level\", .str c!\"RAID0\")]", "--level=RAID5": "[(c!\"level\", .str c!\"RAID5\")]", "--level=raid6": "[(c!\"level\", .str c!\"RAID6\")]", "--level=10": "[(c!\"level\", .str c!\"RAID10\")]", "--level=linear": "REFUSED", "--spares=1": "[(c!\"spares\", .int 1)]", "--spares=2": "[(c!\"spares\", .int 2)]"}}, "152": {"cmd": "repo", "cls": "F14_Repo.cls F14_RepoData.cls", "vs": [12000], "base": "--name=r --baseurl=b", "bi": 0, "lines": ["--name=QX", "--baseurl=QX", "--mirrorlist=QX", "--cost=42", "--excludepkgs=QX", "--includepkgs=QX", "--ignoregroups=yes", "--ignoregroups=off", "--proxy=QX", "--noverifyssl", "--install", "--metalink=QX", "--sslcacert=QX", "--sslclientcert=QX", "--sslclientkey=QX"], "ok": true, "kind": "L", "d": "[(c!\"lineno\", .int 7), (c!\"baseurl\", .str c!\"b\"), (c!\"mirrorlist\", .none), (c!\"name\", .str c!\"r\"), (c!\"cost\", .none), (c!\"includepkgs\", .list []), (c!\"excludepkgs\", .list []), (c!\"ignoregroups\", .none), (c!\"proxy\", .str c!\"\"), (c!\"noverifyssl\", .bool false)]", "bsets": "[]", "rows": {"--name=QX": "[(c!\"name\", .str c!\"QX\")]", "--baseurl=QX": "[(c!\"baseurl\", .str c!\"QX\")]", "--mirrorlist=QX": "REFUSED", "--cost=42": "[(c!\"cost\", .int 42)]", "--excludepkgs=QX": "[(c!\"excludepkgs\", .list [c!\"QX\"])]", "--includepkgs=QX": "[(c!\"includepkgs\", .list [c!\"QX\"])]", "--ignoregroups=yes": "[(c!\"ignoregroups\", .bool true)]", "--ignoregroups=off": "[(c!\"ignoregroups\", .bool false)]", "--proxy=QX": "[(c!\"proxy\", .str c!\"QX\")]", "--noverifyssl": "[(c!\"noverifyssl\", .bool true)]", "--install": "REFUSED", "--metalink=QX": "REFUSED", "--sslcacert=QX": "REFUSED", "--sslclientcert=QX": "REFUSED", "--sslclientkey=QX": "REFUSED"}}, "153": {"cmd": "repo", "cls": "F14_Repo.cls F14_RepoData.cls", "vs": [12000], "base": "--name=r --mirrorlist=m", "bi": 1, "lines": ["--baseurl=QX", "--metalink=QX"], "ok": true, "kind": "L", "d": "[(c!\"lineno\", .int 7), (c!\"baseurl\", .str c!\"\"), (c!\"mirrorlist\", .str c!\"m\"), (c!\"name\", .str c!\"r\"), (c!\"cost\", .none), (c!\"includepkgs\", .list []), (c!\"excludepkgs\", .list []), (c!\"ignoregroups\", .none), (c!\"proxy\", .str c!\"\"), (c!\"noverifyssl\", .bool false)]", "bsets": "[]", "rows": {"--baseurl=QX": "REFUSED", "--metalink=QX": "REFUSED"}}, "154": {"cmd": "repo", "cls": "F14_Repo.cls F14_RepoData.cls", "vs": [12000], "base": "--name=r --metalink=m", "bi": 2, "lines": ["--mirrorlist=QX"], "ok": false}, "155": {"cmd": "url", "cls": "F14_Url.cls", "vs": [12000, 13000, 14000, 15000], "base": "--url=U", "bi": 0, "lines": ["--url=QX", "--proxy=QX", "--noverifyssl", "--mirrorlist=QX", "--metalink=QX", "--sslcacert=QX", "--sslclientcert=QX", "--sslclientkey=QX"], "ok": true, "kind": "P", "d": "[(c!\"url\", .str c!\"U\"), (c!\"proxy\", .str c!\"\"), (c!\"noverifyssl\", .bool false)]", "bsets": "[(c!\"url\", .str c!\"U\")]", "rows": {"--url=QX": "[(c!\"url\", .str c!\"QX\")]", "--proxy=QX": "[(c!\"proxy\", .str c!\"QX\")]", "--noverifyssl": "[(c!\"noverifyssl\", .bool true)]", "--mirrorlist=QX": "REFUSED", "--metalink=QX": "REFUSED", "--sslcacert=QX": "REFUSED", "--sslclientcert=QX": "REFUSED", "--sslclientkey=QX": "REFUSED"}}, "156": {"cmd": "url", "cls": "F14_Url.cls", "vs": [12000, 13000, 14000, 15000], "base": "--mirrorlist=M", "bi": 1, "lines": ["--proxy=QX", "--metalink=QX", "--url=QX"], "ok": false}, "157": {"cmd": "url", "cls": "F14_Url.cls", "vs": [12000, 13000, 14000, 15000], "base": "--metalink=M", "bi": 2, "lines": ["--mirrorlist=QX"], "ok": false}, "158": {"cmd": "xconfig", "cls": "F14_XConfig.cls", "vs": [12000, 13000, 14000, 15000, 16000, 17000, 18000, 19000, 20000, 21000, 22000, 23000, 24000, 25000, 26000, 27000, 30000, 31000, 32000, 33000, 34000, 19100, 26100], "base": "", "bi": 0, "lines": ["--defaultdesktop=QX", "--startxonboot", "--driver=QX", "--depth=QX", "--resolution=QX", "--videoram=QX", "--depth=42", "--card=QX", "--hsync=QX", "--monitor=QX", "--noprobe=QX", "--vsync=QX", "--noprobe", "--server=QX"], "ok": true, "kind": "P", "d": "[(c!\"defaultdesktop\", .str c!\"\"), (c!\"depth\", .int 0), (c!\"startX\", .bool false)]", "bsets": "[]", "rows": {"--defaultdesktop=QX": "[(c!\"defaultdesktop\", .str c!\"QX\")]", "--startxonboot": "[(c!\"startX\", .bool true)]", "--driver=QX": "REFUSED", "--depth=QX": "REFUSED", "--resolution=QX": "REFUSED", "--videoram=QX": "REFUSED", "--depth=42": "REFUSED", "--card=QX": "REFUSED", "--hsync=QX": "REFUSED", "--monitor=QX": "REFUSED", "--noprobe=QX": "REFUSED", "--vsync=QX": "REFUSED", "--noprobe": "REFUSED", "--server=QX": "REFUSED"}}, "159": {"cmd": "zfcp", "cls": "F14_ZFCP.cls F14_ZFCPData.cls", "vs": [12000, 13000, 14000, 15000, 16000, 17000, 18000, 19000, 20000, 21000, 22000, 23000, 24000, 25000, 26000, 27000, 30000, 31000, 32000, 33000, 34000, 19100, 26100], "base": "--devnum=d --wwpn=w --fcplun=f --scsiid=s --scsilun=l", "bi": 0, "lines": ["--devnum=QX", "--wwpn=QX", "--fcplun=QX", "--scsiid=QX", "--scsilun=QX"], "ok": false}, "160": {"cmd": "zfcp", "cls": "F14_ZFCP.cls F14_ZFCPData.cls", "vs": [12000, 13000, 14000, 15000, 16000, 17000, 18000, 19000, 20000, 21000, 22000, 23000, 24000, 25000, 26000, 27000, 30000, 31000, 32000, 33000, 34000, 19100, 26100], "base": "--devnum=d --wwpn=w --fcplun=f", "bi": 1, "lines": ["--devnum=QX", "--wwpn=QX", "--fcplun=QX"], "ok": true, "kind": "L", "d": "[(c!\"lineno\", .int 7), (c!\"devnum\", .str c!\"d\"), (c!\"wwpn\", .str c!\"w\"), (c!\"fcplun\", .str c!\"f\")]", "bsets": "[]", "rows": {"--devnum=QX": "[(c!\"devnum\", .str c!\"QX\")]", "--wwpn=QX": "[(c!\"wwpn\", .str c!\"QX\")]", "--fcplun=QX": "[(c!\"fcplun\", .str c!\"QX\")]"}}, "161": {"cmd": "zfcp", "cls": "F14_ZFCP.cls F14_ZFCPData.cls", "vs": [12000, 13000, 14000, 15000, 16000, 17000, 18000, 19000, 20000, 21000, 22000, 23000, 24000, 25000, 26000, 27000, 30000, 31000, 32000, 33000, 34000, 19100, 26100], "base": "--devnum=d", "bi": 2, "lines": ["--wwpn=QX", "--fcplun=QX"], "ok": false}, "162": {"cmd": "bootloader", "cls": "F15_Bootloader.cls", "vs": [13000, 14000], "base": "", "bi": 0, "lines": ["--append=QX", "--location=mbr", "--location=partition", "--location=none", "--location=boot", "--lba32", "--password=QX", "--md5pass=QX", "--upgrade", "--driveorder=QX", "--timeout=42", "--default=QX", "--iscrypted", "--boot-drive=QX", "--leavebootorder", "--extlinux", "--disabled", "--nombr", "--linear", "--nolinear", "--useLilo", "--hvargs=QX"], "ok": true, "kind": "P", "d": "[(c!\"driveorder\", .list []), (c!\"appendLine\", .str c!\"\"), (c!\"location\", .str c!\"mbr\"), (c!\"md5pass\", .str c!\"\"), (c!\"password\", .str c!\"\"), (c!\"upgrade\", .bool false), (c!\"timeout\", .none), (c!\"default\", .str c!\"\"), (c!\"isCrypted\", .bool false)]", "bsets": "[(c!\"location\", .str c!\"mbr\")]", "rows": {"--append=QX": "[(c!\"appendLine\", .str c!\"QX\")]", "--location=mbr": "[]", "--location=partition": "[(c!\"location\", .str c!\"partition\")]", "--location=none": "[(c!\"location\", .str c!\"none\")]", "--location=boot": "[(c!\"location\", .str c!\"boot\")]", "--lba32": "REFUSED", "--password=QX": "[(c!\"password\", .str c!\"QX\")]", "--md5pass=QX": "[(c!\"password\", .str c!\"QX\"), (c!\"isCrypted\", .bool true)]", "--upgrade": "[(c!\"upgrade\", .bool true)]", "--driveorder=QX": "[(c!\"driveorder\", .list [c!\"QX\"])]", "--timeout=42": "[(c!\"timeout\", .int 42)]", "--default=QX": "[(c!\"default\", .str c!\"QX\")]", "--iscrypted": "[(c!\"isCrypted\", .bool true)]", "--boot-drive=QX": "REFUSED", "--leavebootorder": "REFUSED", "--extlinux": "REFUSED", "--disabled": "REFUSED", "--nombr": "REFUSED", "--linear": "REFUSED", "--nolinear": "REFUSED", "--useLilo": "REFUSED", "--hvargs=QX": "REFUSED"}}, "163": {"cmd": "logvol", "cls": "F15_LogVol.cls F15_LogVolData.cls", "vs": [13000], "base": "/x --name=n --vgname=g --size=1", "bi": 0, "lines": ["--fstype=QX", "--grow", "--maxsize=42", "--name=QX", "--noformat", "--percent=42", "--recommended", "--size=42", "--useexisting", "--vgname=QX", "--fsoptions=QX", "--bytes-per-inode=QX", "--fsprofile=QX", "--encrypted", "--passphrase=QX", "--escrowcert=QX", "--backuppassphrase", "--label=QX", "--resize", "--hibernation", "--cipher=QX", "--thinpool", "--thin", "--poolname=QX", "--chunksize=42", "--metadatasize=42", "--profile=QX", "--cachesize=42", "--cachemode=QX", "--cachepvs=QX", "--mkfsoptions=QX", "--luks-version=QX", "--pbkdf=QX", "--pbkdf-memory=42", "--pbkdf-time=42", "--pbkdf-iterations=42", "--bytes-per-inode=42"], "ok": true, "kind": "L", "d": "[(c!\"lineno\", .int 7), (c!\"fstype\", .str c!\"\"), (c!\"grow\", .bool false), (c!\"maxSizeMB\", .int 0), (c!\"name\", .str c!\"n\"), (c!\"format\", .bool true), (c!\"percent\", .int 0), (c!\"recommended\", .bool false), (c!\"size\", .int 1), (c!\"preexist\", .bool false), (c!\"vgname\", .str c!\"g\"), (c!\"mountpoint\", .str c!\"/x\"), (c!\"fsopts\", .str c!\"\"), (c!\"fsprofile\", .str c!\"\"), (c!\"encrypted\", .bool false), (c!\"passphrase\", .str c!\"\"), (c!\"escrowcert\", .str c!\"\"), (c!\"backuppassphrase\", .bool false), (c!\"label\", .str c!\"\"), (c!\"mntpoint\", .list [c!\"/x\"])]", "bsets": "[]", "rows": {"--fstype=QX": "[(c!\"fstype\", .str c!\"QX\")]", "--grow": "[(c!\"grow\", .bool true)]", "--maxsize=42": "[(c!\"maxSizeMB\", .int 42)]", "--name=QX": "[(c!\"name\", .str c!\"QX\")]", "--noformat": "[(c!\"format\", .bool false), (c!\"preexist\", .bool true)]", "--percent=42": "[(c!\"percent\", .int 42)]", "--recommended": "[(c!\"recommended\", .bool true)]", "--size=42": "[(c!\"size\", .int 42)]", "--useexisting": "[(c!\"preexist\", .bool true)]", "--vgname=QX": "[(c!\"vgname\", .str c!\"QX\")]", "--fsoptions=QX": "[(c!\"fsopts\", .str c!\"QX\")]", "--bytes-per-inode=QX": "REFUSED", "--fsprofile=QX": "[(c!\"fsprofile\", .str c!\"QX\")]", "--encrypted": "[(c!\"encrypted\", .bool true)]", "--passphrase=QX": "[(c!\"passphrase\", .str c!\"QX\")]", "--escrowcert=QX": "[(c!\"escrowcert\", .str c!\"QX\")]", "--backuppassphrase": "[(c!\"backuppassphrase\", .bool true)]", "--label=QX": "[(c!\"label\", .str c!\"QX\")]", "--resize": "REFUSED", "--hibernation": "REFUSED", "--cipher=QX": "REFUSED", "--thinpool": "REFUSED", "--thin": "REFUSED", "--poolname=QX": "REFUSED", "--chunksize=42": "REFUSED", "--metadatasize=42": "REFUSED", "--profile=QX": "REFUSED", "--cachesize=42": "REFUSED", "--cachemode=QX": "REFUSED", "--cachepvs=QX": "REFUSED", "--mkfsoptions=QX": "REFUSED", "--luks-version=QX": "REFUSED", "--pbkdf=QX": "REFUSED", "--pbkdf-memory=42": "REFUSED", "--pbkdf-time=42": "REFUSED", "--pbkdf-iterations=42": "REFUSED", "--bytes-per-inode=42": "REFUSED"}}, "164": {"cmd": "logvol", "cls": "F15_LogVol.cls F15_LogVolData.cls", "vs": [13000], "base": "/x --name=n --vgname=g --useexisting", "bi": 1, "lines": ["--size=42", "--resize", "--noformat", "--fstype=ext4"], "ok": true, "kind": "L", "d": "[(c!\"lineno\", .int 7), (c!\"fstype\", .str c!\"\"), (c!\"grow\", .bool false), (c!\"maxSizeMB\", .int 0), (c!\"name\", .str c!\"n\"), (c!\"format\", .bool true), (c!\"percent\", .int 0), (c!\"recommended\", .bool false), (c!\"size\", .none), (c!\"preexist\", .bool true), (c!\"vgname\", .str c!\"g\"), (c!\"mountpoint\", .str c!\"/x\"), (c!\"fsopts\", .str c!\"\"), (c!\"fsprofile\", .str c!\"\"), (c!\"encrypted\", .bool false), (c!\"passphrase\", .str c!\"\"), (c!\"escrowcert\", .str c!\"\"), (c!\"backuppassphrase\", .bool false), (c!\"label\", .str c!\"\"), (c!\"mntpoint\", .list [c!\"/x\"])]", "bsets": "[]", "rows": {"--size=42": "[(c!\"size\", .int 42)]", "--resize": "REFUSED", "--noformat": "[(c!\"format\", .bool false)]", "--fstype=ext4": "[(c!\"fstype\", .str c!\"ext4\")]"}}, "165": {"cmd": "logvol", "cls": "F15_LogVol.cls F15_LogVolData.cls", "vs": [13000], "base": "/x --name=n --vgname=g", "bi": 2, "lines": ["--percent=42", "--useexisting", "--noformat"], "ok": true, "kind": "L", "d": "[(c!\"lineno\", .int 7), (c!\"fstype\", .str c!\"\"), (c!\"grow\", .bool false), (c!\"maxSizeMB\", .int 0), (c!\"name\", .str c!\"n\"), (c!\"format\", .bool true), (c!\"percent\", .int 0), (c!\"recommended\", .bool false), (c!\"size\", .none), (c!\"preexist\", .bool false), (c!\"vgname\", .str c!\"g\"), (c!\"mountpoint\", .str c!\"/x\"), (c!\"fsopts\", .str c!\"\"), (c!\"fsprofile\", .str c!\"\"), (c!\"encrypted\", .bool false), (c!\"passphrase\", .str c!\"\"), (c!\"escrowcert\", .str c!\"\"), (c!\"backuppassphrase\", .bool false), (c!\"label\", .str c!\"\"), (c!\"mntpoint\", .list [c!\"/x\"])]", "bsets": "[]", "rows": {"--percent=42": "[(c!\"percent\", .int 42)]", "--useexisting": "[(c!\"preexist\", .bool true)]", "--noformat": "[(c!\"format\", .bool false), (c!\"preexist\", .bool true)]"}}, "166": {"cmd": "logvol", "cls": "F15_LogVol.cls F15_LogVolData.cls", "vs": [13000], "base": "/x --name=n --vgname=g --size=1 --poolname=p", "bi": 3, "lines": ["--thin", "--thinpool", "--label=QX"], "ok": false}, "167": {"cmd": "logvol", "cls": "F15_LogVol.cls F15_LogVolData.cls", "vs": [13000], "base": "none --name=n --vgname=g --size=1 --thinpool", "bi": 4, "lines": ["--chunksize=42", "--metadatasize=42", "--profile=QX", "--grow"], "ok": false}, "168": {"cmd": "logvol", "cls": "F15_LogVol.cls F15_LogVolData.cls", "vs": [13000], "base": "/x --name=n --vgname=g --size=1 --cachepvs=a --cachesize=5", "bi": 5, "lines": ["--cachemode=writeback", "--cachemode=writethrough"], "ok": false}, "169": {"cmd": "raid", "cls": "F15_Raid.cls F15_RaidData.cls", "vs": [13000, 14000, 15000], "base": "/x --device=1 --level=RAID1 raid.1 raid.2", "bi": 0, "lines": ["--device=QX", "--fstype=QX", "--level=RAID0", "--level=0", "--level=RAID1", "--level=1", "--level=RAID5", "--level=5", "--level=RAID6", "--level=6", "--level=RAID10", "--level=10", "--noformat", "--spares=42", "--useexisting", "--fsoptions=QX", "--bytes-per-inode=QX", "--fsprofile=QX", "--encrypted", "--passphrase=QX", "--escrowcert=QX", "--backuppassphrase", "--level=RAID4", "--level=4", "--label=QX", "--cipher=QX", "--mkfsoptions=QX", "--chunksize=42", "--luks-version=QX", "--pbkdf=QX", "--pbkdf-memory=42", "--pbkdf-time=42", "--pbkdf-iterations=42", "--bytes-per-inode=42"], "ok": true, "kind": "L", "d": "[(c!\"lineno\", .int 7), (c!\"device\", .int 1), (c!\"fstype\", .str c!\"\"), (c!\"level\", .str c!\"RAID1\"), (c!\"format\", .bool true), (c!\"spares\", .int 0), (c!\"preexist\", .bool false), (c!\"mountpoint\", .str c!\"/x\"), (c!\"members\", .list [c!\"raid.1\", c!\"raid.2\"]), (c!\"fsopts\", .str c!\"\"), (c!\"fsprofile\", .str c!\"\"), (c!\"encrypted\", .bool false), (c!\"passphrase\", .str c!\"\"), (c!\"escrowcert\", .str c!\"\"), (c!\"backuppassphrase\", .bool false), (c!\"label\", .str c!\"\"), (c!\"mntpoint\", .list [c!\"/x\"]), (c!\"partitions\", .list [c!\"raid.1\", c!\"raid.2\"])]", "bsets": "[]", "rows": {"--device=QX": "REFUSED", "--fstype=QX": "[(c!\"fstype\", .str c!\"QX\")]", "--level=RAID0": "[(c!\"level\", .str c!\"RAID0\")]", "--level=0": "[(c!\"level\", .str c!\"RAID0\")]", "--level=RAID1": "[]", "--level=1": "[]", "--level=RAID5": "[(c!\"level\", .str c!\"RAID5\")]", "--level=5": "[(c!\"level\", .str c!\"RAID5\")]", "--level=RAID6": "[(c!\"level\", .str c!\"RAID6\")]", "--level=6": "[(c!\"level\", .str c!\"RAID6\")]", "--level=RAID10": "[(c!\"level\", .str c!\"RAID10\")]", "--level=10": "[(c!\"level\", .str c!\"RAID10\")]", "--noformat": "REFUSED", "--spares=42": "[(c!\"spares\", .int 42)]", "--useexisting": "REFUSED", "--fsoptions=QX": "[(c!\"fsopts\", .str c!\"QX\")]", "--bytes-per-inode=QX": "REFUSED", "--fsprofile=QX": "[(c!\"fsprofile\", .str c!\"QX\")]", "--encrypted": "[(c!\"encrypted\", .bool true)]", "--passphrase=QX": "[(c!\"passphrase\", .str c!\"QX\")]", "--escrowcert=QX": "[(c!\"escrowcert\", .str c!\"QX\")]", "--backuppassphrase": "[(c!\"backuppassphrase\", .bool true)]", "--level=RAID4": "[(c!\"level\", .str c!\"RAID4\")]", "--level=4": "[(c!\"level\", .str c!\"RAID4\")]", "--label=QX": "[(c!\"label\", .str c!\"QX\")]", "--cipher=QX": "REFUSED", "--mkfsoptions=QX": "REFUSED", "--chunksize=42": "REFUSED", "--luks-version=QX": "REFUSED", "--pbkdf=QX": "REFUSED", "--pbkdf-memory=42": "REFUSED", "--pbkdf-time=42": "REFUSED", "--pbkdf-iterations=42": "REFUSED", "--bytes-per-inode=42": "REFUSED"}}, "170": {"cmd": "raid", "cls": "F15_Raid.cls F15_RaidData.cls", "vs": [13000, 14000, 15000], "base": "/x --device=1 --noformat", "bi": 1, "lines": ["--fstype=ext4", "--label=QX"], "ok": true, "kind": "L", "d": "[(c!\"lineno\", .int 7), (c!\"device\", .int 1), (c!\"fstype\", .str c!\"\"), (c!\"level\", .str c!\"\"), (c!\"format\", .bool false), (c!\"spares\", .int 0), (c!\"preexist\", .bool true), (c!\"mountpoint\", .str c!\"/x\"), (c!\"members\", .list []), (c!\"fsopts\", .str c!\"\"), (c!\"fsprofile\", .str c!\"\"), (c!\"encrypted\", .bool false), (c!\"passphrase\", .str c!\"\"), (c!\"escrowcert\", .str c!\"\"), (c!\"backuppassphrase\", .bool false), (c!\"label\", .str c!\"\"), (c!\"mntpoint\", .list [c!\"/x\"]), (c!\"partitions\", .list [])]", "bsets": "[]", "rows": {"--fstype=ext4": "[(c!\"fstype\", .str c!\"ext4\")]", "--label=QX": "[(c!\"label\", .str c!\"QX\")]"}}, "171": {"cmd": "raid", "cls": "F15_Raid.cls F15_RaidData.cls", "vs": [13000, 14000, 15000], "base": "/x --device=1 --useexisting", "bi": 2, "lines": ["--fstype=ext4", "--label=QX"], "ok": true, "kind": "L", "d": "[(c!\"lineno\", .int 7), (c!\"device\", .int 1), (c!\"fstype\", .str c!\"\"), (c!\"level\", .str c!\"\"), (c!\"format\", .bool true), (c!\"spares\", .int 0), (c!\"preexist\", .bool true), (c!\"mountpoint\", .str c!\"/x\"), (c!\"members\", .list []), (c!\"fsopts\", .str c!\"\"), (c!\"fsprofile\", .str c!\"\"), (c!\"encrypted\", .bool false), (c!\"passphrase\", .str c!\"\"), (c!\"escrowcert\", .str c!\"\"), (c!\"backuppassphrase\", .bool false), (c!\"label\", .str c!\"\"), (c!\"mntpoint\", .list [c!\"/x\"]), (c!\"partitions\", .list [])]", "bsets": "[]", "rows": {"--fstype=ext4": "[(c!\"fstype\", .str c!\"ext4\")]", "--label=QX": "[(c!\"label\", .str c!\"QX\")]"}}, "172": {"cmd": "raid", "cls": "F15_Raid.cls F15_RaidData.cls", "vs": [13000, 14000, 15000], "base": "/x --device=1 --level=RAID1 raid.1 raid.2 raid.3", "bi": 3, "lines": ["--device=md7", "--device=data", "--level=0", "--level=RAID5", "--level=raid6", "--level=10", "--level=linear", "--spares=1", "--spares=2"], "ok": true, "kind": "L", "d": "[(c!\"lineno\", .int 7), (c!\"device\", .int 1), (c!\"fstype\", .str c!\"\"), (c!\"level\", .str c!\"RAID1\"), (c!\"format\", .bool true), (c!\"spares\", .int 0), (c!\"preexist\", .bool false), (c!\"mountpoint\", .str c!\"/x\"), (c!\"members\", .list [c!\"raid.1\", c!\"raid.2\", c!\"raid.3\"]), (c!\"fsopts\", .str c!\"\"), (c!\"fsprofile\", .str c!\"\"), (c!\"encrypted\", .bool false), (c!\"passphrase\", .str c!\"\"), (c!\"escrowcert\", .str c!\"\"), (c!\"backuppassphrase\", .bool false), (c!\"label\", .str c!\"\"), (c!\"mntpoint\", .list [c!\"/x\"]), (c!\"partitions\", .list [c!\"raid.1\", c!\"raid.2\", c!\"raid.3\"])]", "bsets": "[]", "rows": {"--device=md7": "[(c!\"device\", .int 7)]", "--device=data": "REFUSED", "--level=0": "[(c!\"level\", .str c!\"RAID0\")]", "--level=RAID5": "[(c!\"level\", .str c!\"RAID5\")]", "--level=raid6": "[(c!\"level\", .str c!\"RAID6\")]", "--level=10": "[(c!\"level\", .str c!\"RAID10\")]", "--level=linear": "REFUSED", "--spares=1": "[(c!\"spares\", .int 1)]", "--spares=2": "[(c!\"spares\", .int 2)]"}}, "173": {"cmd": "repo", "cls": "F15_Repo.cls F15_RepoData.cls", "vs": [13000, 14000, 15000, 16000, 17000, 18000], "base": "--name=r --baseurl=b", "bi": 0, "lines": ["--name=QX", "--baseurl=QX", "--mirrorlist=QX", "--cost=42", "--excludepkgs=QX", "--includepkgs=QX", "--ignoregroups=yes", "--ignoregroups=off", "--proxy=QX", "--noverifyssl", "--install", "--metalink=QX", "--sslcacert=QX", "--sslclientcert=QX", "--sslclientkey=QX"], "ok": true, "kind": "L", "d": "[(c!\"lineno\", .int 7), (c!\"baseurl\", .str c!\"b\"), (c!\"mirrorlist\", .none), (c!\"name\", .str c!\"r\"), (c!\"cost\", .none), (c!\"includepkgs\", .list []), (c!\"excludepkgs\", .list []), (c!\"ignoregroups\", .none), (c!\"proxy\", .str c!\"\"), (c!\"noverifyssl\", .bool false)]", "bsets": "[]", "rows": {"--name=QX": "[(c!\"name\", .str c!\"QX\")]", "--baseurl=QX": "[(c!\"baseurl\", .str c!\"QX\")]", "--mirrorlist=QX": "REFUSED", "--cost=42": "[(c!\"cost\", .int 42)]", "--excludepkgs=QX": "[(c!\"excludepkgs\", .list [c!\"QX\"])]", "--includepkgs=QX": "[(c!\"includepkgs\", .list [c!\"QX\"])]", "--ignoregroups=yes": "[(c!\"ignoregroups\", .bool true)]", "--ignoregroups=off": "[(c!\"ignoregroups\", .bool false)]", "--proxy=QX": "[(c!\"proxy\", .str c!\"QX\")]", "--noverifyssl": "[(c!\"noverifyssl\", .bool true)]", "--install": "REFUSED", "--metalink=QX": "REFUSED", "--sslcacert=QX": "REFUSED", "--sslclientcert=QX": "REFUSED", "--sslclientkey=QX": "REFUSED"}}, "174": {"cmd": "repo", "cls": "F15_Repo.cls F15_RepoData.cls", "vs": [13000, 14000, 15000, 16000, 17000, 18000], "base": "--name=r --mirrorlist=m", "bi": 1, "lines": ["--baseurl=QX", "--metalink=QX"], "ok": true, "kind": "L", "d": "[(c!\"lineno\", .int 7), (c!\"baseurl\", .str c!\"\"), (c!\"mirrorlist\", .str c!\"m\"), (c!\"name\", .str c!\"r\"), (c!\"cost\", .none), (c!\"includepkgs\", .list []), (c!\"excludepkgs\", .list []), (c!\"ignoregroups\", .none), (c!\"proxy\", .str c!\"\"), (c!\"noverifyssl\", .bool false)]", "bsets": "[]", "rows": {"--baseurl=QX": "REFUSED", "--metalink=QX": "REFUSED"}}, "175": {"cmd": "repo", "cls": "F15_Repo.cls F15_RepoData.cls", "vs": [13000, 14000, 15000, 16000, 17000, 18000], "base": "--name=r --metalink=m", "bi": 2, "lines": ["--mirrorlist=QX"], "ok": false}, "176": {"cmd": "autopart", "cls": "F16_AutoPart.cls", "vs": [14000], "base": "", "bi": 0, "lines": ["--encrypted", "--passphrase=QX", "--escrowcert=QX", "--backuppassphrase", "--nolvm", "--type=lvm", "--type=btrfs", "--type=plain", "--type=partition", "--cipher=QX", "--type=thinp", "--fstype=QX", "--nohome", "--noboot", "--noswap", "--luks-version=QX", "--pbkdf=QX", "--pbkdf-memory=42", "--pbkdf-time=42", "--pbkdf-iterations=42"], "ok": true, "kind": "P", "d": "[(c!\"autopart\", .bool true), (c!\"encrypted\", .bool false), (c!\"passphrase\", .str c!\"\"), (c!\"escrowcert\", .str c!\"\"), (c!\"backuppassphrase\", .bool false), (c!\"lvm\", .bool true)]", "bsets": "[(c!\"autopart\", .bool true)]", "rows": {"--encrypted": "[(c!\"encrypted\", .bool true)]", "--passphrase=QX": "[(c!\"passphrase\", .str c!\"QX\")]", "--escrowcert=QX": "[(c!\"escrowcert\", .str c!\"QX\")]", "--backuppassphrase": "[(c!\"backuppassphrase\", .bool true)]", "--nolvm": "[(c!\"lvm\", .bool false)]", "--type=lvm": "REFUSED", "--type=btrfs": "REFUSED", "--type=plain": "REFUSED", "--type=partition": "REFUSED", "--cipher=QX": "REFUSED", "--type=thinp": "REFUSED", "--fstype=QX": "REFUSED", "--nohome": "REFUSED", "--noboot": "REFUSED", "--noswap": "REFUSED", "--luks-version=QX": "REFUSED", "--pbkdf=QX": "REFUSED", "--pbkdf-memory=42": "REFUSED", "--pbkdf-time=42": "REFUSED", "--pbkdf-iterations=42": "REFUSED"}}, "177": {"cmd": "logvol", "cls": "F15_LogVol.cls F17_LogVolData.cls", "vs": [14000], "base": "/x --name=n --vgname=g --size=1", "bi": 0, "lines": ["--fstype=QX", "--grow", "--maxsize=42", "--name=QX", "--noformat", "--percent=42", "--recommended", "--size=42", "--useexisting", "--vgname=QX", "--fsoptions=QX", "--bytes-per-inode=QX", "--fsprofile=QX", "--encrypted", "--passphrase=QX", "--escrowcert=QX", "--backuppassphrase", "--label=QX", "--resize", "--hibernation", "--cipher=QX", "--thinpool", "--thin", "--poolname=QX", "--chunksize=42", "--metadatasize=42", "--profile=QX", "--cachesize=42", "--cachemode=QX", "--cachepvs=QX", "--mkfsoptions=QX", "--luks-version=QX", "--pbkdf=QX", "--pbkdf-memory=42", "--pbkdf-time=42", "--pbkdf-iterations=42", "--bytes-per-inode=42"], "ok": true, "kind": "L", "d": "[(c!\"lineno\", .int 7), (c!\"fstype\", .str c!\"\"), (c!\"grow\", .bool false), (c!\"maxSizeMB\", .int 0), (c!\"name\", .str c!\"n\"), (c!\"format\", .bool true), (c!\"percent\", .int 0), (c!\"recommended\", .bool false), (c!\"size\", .int 1), (c!\"preexist\", .bool false), (c!\"vgname\", .str c!\"g\"), (c!\"mountpoint\", .str c!\"/x\"), (c!\"fsopts\", .str c!\"\"), (c!\"fsprofile\", .str c!\"\"), (c!\"encrypted\", .bool false), (c!\"passphrase\", .str c!\"\"), (c!\"escrowcert\", .str c!\"\"), (c!\"backuppassphrase\", .bool false), (c!\"label\", .str c!\"\"), (c!\"resize\", .bool false), (c!\"mntpoint\", .list [c!\"/x\"])]", "bsets": "[]", "rows": {"--fstype=QX": "[(c!\"fstype\", .str c!\"QX\")]", "--grow": "[(c!\"grow\", .bool true)]", "--maxsize=42": "[(c!\"maxSizeMB\", .int 42)]", "--name=QX": "[(c!\"name\", .str c!\"QX\")]", "--noformat": "[(c!\"format\", .bool false), (c!\"preexist\", .bool true)]", "--percent=42": "[(c!\"percent\", .int 42)]", "--recommended": "[(c!\"recommended\", .bool true)]", "--size=42": "[(c!\"size\", .int 42)]", "--useexisting": "[(c!\"preexist\", .bool true)]", "--vgname=QX": "[(c!\"vgname\", .str c!\"QX\")]", "--fsoptions=QX": "[(c!\"fsopts\", .str c!\"QX\")]", "--bytes-per-inode=QX": "REFUSED", "--fsprofile=QX": "[(c!\"fsprofile\", .str c!\"QX\")]", "--encrypted": "[(c!\"encrypted\", .bool true)]", "--passphrase=QX": "[(c!\"passphrase\", .str c!\"QX\")]", "--escrowcert=QX": "[(c!\"escrowcert\", .str c!\"QX\")]", "--backuppassphrase": "[(c!\"backuppassphrase\", .bool true)]", "--label=QX": "[(c!\"label\", .str c!\"QX\")]", "--resize": "REFUSED", "--hibernation": "REFUSED", "--cipher=QX": "REFUSED", "--thinpool": "REFUSED", "--thin": "REFUSED", "--poolname=QX": "REFUSED", "--chunksize=42": "REFUSED", "--metadatasize=42": "REFUSED", "--profile=QX": "REFUSED", "--cachesize=42": "REFUSED", "--cachemode=QX": "REFUSED", "--cachepvs=QX": "REFUSED", "--mkfsoptions=QX": "REFUSED", "--luks-version=QX": "REFUSED", "--pbkdf=QX": "REFUSED", "--pbkdf-memory=42": "REFUSED", "--pbkdf-time=42": "REFUSED", "--pbkdf-iterations=42": "REFUSED", "--bytes-per-inode=42": "REFUSED"}}, "178": {"cmd": "logvol", "cls": "F15_LogVol.cls F17_LogVolData.cls", "vs": [14000], "base": "/x --name=n --vgname=g --useexisting", "bi": 1, "lines": ["--size=42", "--resize", "--noformat", "--fstype=ext4"], "ok": true, "kind": "L", "d": "[(c!\"lineno\", .int 7), (c!\"fstype\", .str c!\"\"), (c!\"grow\", .bool false), (c!\"maxSizeMB\", .int 0), (c!\"name\", .str c!\"n\"), (c!\"format\", .bool true), (c!\"percent\", .int 0), (c!\"recommended\", .bool false), (c!\"size\", .none), (c!\"preexist\", .bool true), (c!\"vgname\", .str c!\"g\"), (c!\"mountpoint\", .str c!\"/x\"), (c!\"fsopts\", .str c!\"\"), (c!\"fsprofile\", .str c!\"\"), (c!\"encrypted\", .bool false), (c!\"passphrase\", .str c!\"\"), (c!\"escrowcert\", .str c!\"\"), (c!\"backuppassphrase\", .bool false), (c!\"label\", .str c!\"\"), (c!\"resize\", .bool false), (c!\"mntpoint\", .list [c!\"/x\"])]", "bsets": "[]", "rows": {"--size=42": "[(c!\"size\", .int 42)]", "--resize": "REFUSED", "--noformat": "[(c!\"format\", .bool false)]", "--fstype=ext4": "[(c!\"fstype\", .str c!\"ext4\")]"}}, "179": {"cmd": "logvol", "cls": "F15_LogVol.cls F17_LogVolData.cls", "vs": [14000], "base": "/x --name=n --vgname=g", "bi": 2, "lines": ["--percent=42", "--useexisting", "--noformat"], "ok": true, "kind": "L", "d": "[(c!\"lineno\", .int 7), (c!\"fstype\", .str c!\"\"), (c!\"grow\", .bool false), (c!\"maxSizeMB\", .int 0), (c!\"name\", .str c!\"n\"), (c!\"format\", .bool true), (c!\"percent\", .int 0), (c!\"recommended\", .bool false), (c!\"size\", .none), (c!\"preexist\", .bool false), (c!\"vgname\", .str c!\"g\"), (c!\"mountpoint\", .str c!\"/x\"), (c!\"fsopts\", .str c!\"\"), (c!\"fsprofile\", .str c!\"\"), (c!\"encrypted\", .bool false), (c!\"passphrase\", .str c!\"\"), (c!\"escrowcert\", .str c!\"\"), (c!\"backuppassphrase\", .bool false), (c!\"label\", .str c!\"\"), (c!\"resize\", .bool false), (c!\"mntpoint\", .list [c!\"/x\"])]", "bsets": "[]", "rows": {"--percent=42": "[(c!\"percent\", .int 42)]", "--useexisting": "[(c!\"preexist\", .bool true)]", "--noformat": "[(c!\"format\", .bool false), (c!\"preexist\", .bool true)]"}}, "180": {"cmd": "logvol", "cls": "F15_LogVol.cls F17_LogVolData.cls", "vs": [14000], "base": "/x --name=n --vgname=g --size=1 --poolname=p", "bi": 3, "lines": ["--thin", "--thinpool", "--label=QX"], "ok": false}, "181": {"cmd": "logvol", "cls": "F15_LogVol.cls F17_LogVolData.cls", "vs": [14000], "base": "none --name=n --vgname=g --size=1 --thinpool", "bi": 4, "lines": ["--chunksize=42", "--metadatasize=42", "--profile=QX", "--grow"], "ok": false}, "182": {"cmd": "logvol", "cls": "F15_LogVol.cls F17_LogVolData.cls", "vs": [14000], "base": "/x --name=n --vgname=g --size=1 --cachepvs=a --cachesize=5", "bi": 5, "lines": ["--cachemode=writeback", "--cachemode=writethrough"], "ok": false}, "183": {"cmd": "network", "cls": "F16_Network.cls F16_NetworkData.cls", "vs": [14000, 15000], "base": "", "bi": 0, "lines": ["--bootproto=dhcp", "--bootproto=bootp", "--bootproto=static", "--bootproto=query", "--dhcpclass=QX", "--device=QX", "--essid=QX", "--ethtool=QX", "--gateway=QX", "--hostname=QX", "--ip=QX", "--mtu=QX", "--nameserver=QX", "--netmask=QX", "--nodns", "--onboot=yes", "--onboot=off", "--wepkey=QX", "--notksdevice", "--noipv4", "--noipv6", "--ipv6=QX", "--bootproto=ibft", "--activate", "--nodefroute", "--wpakey=QX", "--bondslaves=QX", "--bondopts=QX", "--vlanid=QX", "--ipv6gateway=QX", "--teamslaves=QX", "--teamconfig=QX", "--interfacename=QX", "--bridgeslaves=QX", "--bridgeopts=QX", "--no-activate", "--bindto=mac"], "ok": true, "kind": "L", "d": "[(c!\"lineno\", .int 7), (c!\"bootProto\", .str c!\"dhcp\"), (c!\"dhcpclass\", .str c!\"\"), (c!\"device\", .str c!\"\"), (c!\"essid\", .str c!\"\"), (c!\"ethtool\", .str c!\"\"), (c!\"gateway\", .str c!\"\"), (c!\"hostname\", .str c!\"\"), (c!\"ip\", .str c!\"\"), (c!\"mtu\", .str c!\"\"), (c!\"nameserver\", .str c!\"\"), (c!\"netmask\", .str c!\"\"), (c!\"nodns\", .bool false), (c!\"onboot\", .bool true), (c!\"wepkey\", .str c!\"\"), (c!\"notksdevice\", .bool false), (c!\"noipv4\", .bool false), (c!\"noipv6\", .bool false), (c!\"ipv6\", .str c!\"\"), (c!\"activate\", .none), (c!\"nodefroute\", .bool false), (c!\"wpakey\", .str c!\"\")]", "bsets": "[]", "rows": {"--bootproto=dhcp": "[]", "--bootproto=bootp": "[(c!\"bootProto\", .str c!\"bootp\")]", "--bootproto=static": "[(c!\"bootProto\", .str c!\"static\")]", "--bootproto=query": "[(c!\"bootProto\", .str c!\"query\")]", "--dhcpclass=QX": "[(c!\"dhcpclass\", .str c!\"QX\")]", "--device=QX": "[(c!\"device\", .str c!\"QX\")]", "--essid=QX": "[(c!\"essid\", .str c!\"QX\")]", "--ethtool=QX": "[(c!\"ethtool\", .str c!\"QX\")]", "--gateway=QX": "[(c!\"gateway\", .str c!\"QX\")]", "--hostname=QX": "[(c!\"hostname\", .str c!\"QX\")]", "--ip=QX": "[(c!\"ip\", .str c!\"QX\")]", "--mtu=QX": "[(c!\"mtu\", .str c!\"QX\")]", "--nameserver=QX": "[(c!\"nameserver\", .str c!\"QX\")]", "--netmask=QX": "[(c!\"netmask\", .str c!\"QX\")]", "--nodns": "[(c!\"nodns\", .bool true)]", "--onboot=yes": "[]", "--onboot=off": "[(c!\"onboot\", .bool false)]", "--wepkey=QX": "[(c!\"wepkey\", .str c!\"QX\")]", "--notksdevice": "[(c!\"notksdevice\", .bool true)]", "--noipv4": "[(c!\"noipv4\", .bool true)]", "--noipv6": "[(c!\"noipv6\", .bool true)]", "--ipv6=QX": "[(c!\"ipv6\", .str c!\"QX\")]", "--bootproto=ibft": "[(c!\"bootProto\", .str c!\"ibft\")]", "--activate": "[(c!\"activate\", .bool true)]", "--nodefroute": "[(c!\"nodefroute\", .bool true)]", "--wpakey=QX": "[(c!\"wpakey\", .str c!\"QX\")]", "--bondslaves=QX": "REFUSED", "--bondopts=QX": "REFUSED", "--vlanid=QX": "REFUSED", "--ipv6gateway=QX": "REFUSED", "--teamslaves=QX": "REFUSED", "--teamconfig=QX": "REFUSED", "--interfacename=QX": "REFUSED", "--bridgeslaves=QX": "REFUSED", "--bridgeopts=QX": "REFUSED", "--no-activate": "REFUSED", "--bindto=mac": "REFUSED"}}, "184": {"cmd": "network", "cls": "F16_Network.cls F16_NetworkData.cls", "vs": [14000, 15000], "base": "--device=b --bridgeslaves=e", "bi": 1, "lines": ["--bridgeopts=stp=6", "--bridgeopts=stp", "--bridgeslaves=a,b"], "ok": false}, "185": {"cmd": "network", "cls": "F16_Network.cls F16_NetworkData.cls", "vs": [14000, 15000], "base": "--bootproto=static --ip=i", "bi": 2, "lines": ["--netmask=QX", "--gateway=QX"], "ok": true, "kind": "L", "d": "[(c!\"lineno\", .int 7), (c!\"bootProto\", .str c!\"static\"), (c!\"dhcpclass\", .str c!\"\"), (c!\"device\", .str c!\"\"), (c!\"essid\", .str c!\"\"), (c!\"ethtool\", .str c!\"\"), (c!\"gateway\", .str c!\"\"), (c!\"hostname\", .str c!\"\"), (c!\"ip\", .str c!\"i\"), (c!\"mtu\", .str c!\"\"), (c!\"nameserver\", .str c!\"\"), (c!\"netmask\", .str c!\"\"), (c!\"nodns\", .bool false), (c!\"onboot\", .bool true), (c!\"wepkey\", .str c!\"\"), (c!\"notksdevice\", .bool false), (c!\"noipv4\", .bool false), (c!\"noipv6\", .bool false), (c!\"ipv6\", .str c!\"\"), (c!\"activate\", .none), (c!\"nodefroute\", .bool false), (c!\"wpakey\", .str c!\"\")]", "bsets": "[]", "rows": {"--netmask=QX": "[(c!\"netmask\", .str c!\"QX\")]", "--gateway=QX": "[(c!\"gateway\", .str c!\"QX\")]"}}, "186": {"cmd": "network", "cls": "F16_Network.cls F16_NetworkData.cls", "vs": [14000, 15000], "base": "--device=t", "bi": 3, "lines": ["--teamslaves=a", "--bondslaves=a,b", "--vlanid=5"], "ok": true, "kind": "L", "d": "[(c!\"lineno\", .int 7), (c!\"bootProto\", .str c!\"dhcp\"), (c!\"dhcpclass\", .str c!\"\"), (c!\"device\", .str c!\"t\"), (c!\"essid\", .str c!\"\"), (c!\"ethtool\", .str c!\"\"), (c!\"gateway\", .str c!\"\"), (c!\"hostname\", .str c!\"\"), (c!\"ip\", .str c!\"\"), (c!\"mtu\", .str c!\"\"), (c!\"nameserver\", .str c!\"\"), (c!\"netmask\", .str c!\"\"), (c!\"nodns\", .bool false), (c!\"onboot\", .bool true), (c!\"wepkey\", .str c!\"\"), (c!\"notksdevice\", .bool false), (c!\"noipv4\", .bool false), (c!\"noipv6\", .bool false), (c!\"ipv6\", .str c!\"\"), (c!\"activate\", .none), (c!\"nodefroute\", .bool false), (c!\"wpakey\", .str c!\"\")]", "bsets": "[]", "rows": {"--teamslaves=a": "REFUSED", "--bondslaves=a,b": "REFUSED", "--vlanid=5": "REFUSED"}}, "187": {"cmd": "part", "cls": "F14_Partition.cls F17_PartData.cls", "vs": [14000], "base": "/x --size=1", "bi": 0, "lines": ["--active", "--asprimary", "--start=42", "--end=42", "--fstype=QX", "--type=QX", "--grow", "--maxsize=42", "--noformat", "--onbiosdisk=QX", "--ondisk=QX", "--ondrive=QX", "--onpart=QX", "--usepart=QX", "--recommended", "--size=42", "--fsoptions=QX", "--label=QX", "--bytes-per-inode=QX", "--fsprofile=QX", "--encrypted", "--passphrase=QX", "--start=QX", "--end=QX", "--escrowcert=QX", "--backuppassphrase", "--resize", "--hibernation", "--cipher=QX", "--mkfsoptions=QX", "--luks-version=QX", "--pbkdf=QX", "--pbkdf-memory=42", "--pbkdf-time=42", "--pbkdf-iterations=42", "--bytes-per-inode=42"], "ok": true, "kind": "L", "d": "[(c!\"lineno\", .int 7), (c!\"active\", .bool false), (c!\"primOnly\", .bool false), (c!\"fstype\", .str c!\"\"), (c!\"grow\", .bool false), (c!\"maxSizeMB\", .int 0), (c!\"format\", .bool true), (c!\"onbiosdisk\", .str c!\"\"), (c!\"disk\", .str c!\"\"), (c!\"onPart\", .str c!\"\"), (c!\"recommended\", .bool false), (c!\"size\", .int 1), (c!\"mountpoint\", .str c!\"/x\"), (c!\"fsopts\", .str c!\"\"), (c!\"label\", .str c!\"\"), (c!\"fsprofile\", .str c!\"\"), (c!\"encrypted\", .bool false), (c!\"passphrase\", .str c!\"\"), (c!\"escrowcert\", .str c!\"\"), (c!\"backuppassphrase\", .bool false), (c!\"resize\", .bool false), (c!\"mntpoint\", .list [c!\"/x\"])]", "bsets": "[]", "rows": {"--active": "[(c!\"active\", .bool true)]", "--asprimary": "[(c!\"primOnly\", .bool true)]", "--start=42": "REFUSED", "--end=42": "REFUSED", "--fstype=QX": "[(c!\"fstype\", .str c!\"QX\")]", "--type=QX": "[(c!\"fstype\", .str c!\"QX\")]", "--grow": "[(c!\"grow\", .bool true)]", "--maxsize=42": "[(c!\"maxSizeMB\", .int 42)]", "--noformat": "[(c!\"format\", .bool false)]", "--onbiosdisk=QX": "[(c!\"onbiosdisk\", .str c!\"QX\")]", "--ondisk=QX": "[(c!\"disk\", .str c!\"QX\")]", "--ondrive=QX": "[(c!\"disk\", .str c!\"QX\")]", "--onpart=QX": "[(c!\"onPart\", .str c!\"QX\")]", "--usepart=QX": "[(c!\"onPart\", .str c!\"QX\")]", "--recommended": "[(c!\"recommended\", .bool true)]", "--size=42": "[(c!\"size\", .int 42)]", "--fsoptions=QX": "[(c!\"fsopts\", .str c!\"QX\")]", "--label=QX": "[(c!\"label\", .str c!\"QX\")]", "--bytes-per-inode=QX": "REFUSED", "--fsprofile=QX": "[(c!\"fsprofile\", .str c!\"QX\")]", "--encrypted": "[(c!\"encrypted\", .bool true)]", "--passphrase=QX": "[(c!\"passphrase\", .str c!\"QX\")]", "--start=QX": "REFUSED", "--end=QX": "REFUSED", "--escrowcert=QX": "[(c!\"escrowcert\", .str c!\"QX\")]", "--backuppassphrase": "[(c!\"backuppassphrase\", .bool true)]", "--resize": "REFUSED", "--hibernation": "REFUSED", "--cipher=QX": "REFUSED", "--mkfsoptions=QX": "REFUSED", "--luks-version=QX": "REFUSED", "--pbkdf=QX": "REFUSED", "--pbkdf-memory=42": "REFUSED", "--pbkdf-time=42": "REFUSED", "--pbkdf-iterations=42": "REFUSED", "--bytes-per-inode=42": "REFUSED"}}, "188": {"cmd": "part", "cls": "F14_Partition.cls F17_PartData.cls", "vs": [14000], "base": "/x --onpart=sda1 --size=1", "bi": 1, "lines": ["--resize", "--noformat"], "ok": true, "kind": "L", "d": "[(c!\"lineno\", .int 7), (c!\"active\", .bool false), (c!\"primOnly\", .bool false), (c!\"fstype\", .str c!\"\"), (c!\"grow\", .bool false), (c!\"maxSizeMB\", .int 0), (c!\"format\", .bool true), (c!\"onbiosdisk\", .str c!\"\"), (c!\"disk\", .str c!\"\"), (c!\"onPart\", .str c!\"sda1\"), (c!\"recommended\", .bool false), (c!\"size\", .int 1), (c!\"mountpoint\", .str c!\"/x\"), (c!\"fsopts\", .str c!\"\"), (c!\"label\", .str c!\"\"), (c!\"fsprofile\", .str c!\"\"), (c!\"encrypted\", .bool false), (c!\"passphrase\", .str c!\"\"), (c!\"escrowcert\", .str c!\"\"), (c!\"backuppassphrase\", .bool false), (c!\"resize\", .bool false), (c!\"mntpoint\", .list [c!\"/x\"])]", "bsets": "[]", "rows": {"--resize": "REFUSED", "--noformat": "[(c!\"format\", .bool false)]"}}, "189": {"cmd": "partition", "cls": "F14_Partition.cls F17_PartData.cls", "vs": [14000], "base": "/x --size=1", "bi": 0, "lines": ["--active", "--asprimary", "--start=42", "--end=42", "--fstype=QX", "--type=QX", "--grow", "--maxsize=42", "--noformat", "--onbiosdisk=QX", "--ondisk=QX", "--ondrive=QX", "--onpart=QX", "--usepart=QX", "--recommended", "--size=42", "--fsoptions=QX", "--label=QX", "--bytes-per-inode=QX", "--fsprofile=QX", "--encrypted", "--passphrase=QX", "--start=QX", "--end=QX", "--escrowcert=QX", "--backuppassphrase", "--resize", "--hibernation", "--cipher=QX", "--mkfsoptions=QX", "--luks-version=QX", "--pbkdf=QX", "--pbkdf-memory=42", "--pbkdf-time=42", "--pbkdf-iterations=42", "--bytes-per-inode=42"], "ok": true, "kind": "L", "d": "[(c!\"lineno\", .int 7), (c!\"active\", .bool false), (c!\"primOnly\", .bool false), (c!\"fstype\", .str c!\"\"), (c!\"grow\", .bool false), (c!\"maxSizeMB\", .int 0), (c!\"format\", .bool true), (c!\"onbiosdisk\", .str c!\"\"), (c!\"disk\", .str c!\"\"), (c!\"onPart\", .str c!\"\"), (c!\"recommended\", .bool false), (c!\"size\", .int 1), (c!\"mountpoint\", .str c!\"/x\"), (c!\"fsopts\", .str c!\"\"), (c!\"label\", .str c!\"\"), (c!\"fsprofile\", .str c!\"\"), (c!\"encrypted\", .bool false), (c!\"passphrase\", .str c!\"\"), (c!\"escrowcert\", .str c!\"\"), (c!\"backuppassphrase\", .bool false), (c!\"resize\", .bool false), (c!\"mntpoint\", .list [c!\"/x\"])]", "bsets": "[]", "rows": {"--active": "[(c!\"active\", .bool true)]", "--asprimary": "[(c!\"primOnly\", .bool true)]", "--start=42": "REFUSED", "--end=42": "REFUSED", "--fstype=QX": "[(c!\"fstype\", .str c!\"QX\")]", "--type=QX": "[(c!\"fstype\", .str c!\"QX\")]", "--grow": "[(c!\"grow\", .bool true)]", "--maxsize=42": "[(c!\"maxSizeMB\", .int 42)]", "--noformat": "[(c!\"format\", .bool false)]", "--onbiosdisk=QX": "[(c!\"onbiosdisk\", .str c!\"QX\")]", "--ondisk=QX": "[(c!\"disk\", .str c!\"QX\")]", "--ondrive=QX": "[(c!\"disk\", .str c!\"QX\")]", "--onpart=QX": "[(c!\"onPart\", .str c!\"QX\")]", "--usepart=QX": "[(c!\"onPart\", .str c!\"QX\")]", "--recommended": "[(c!\"recommended\", .bool true)]", "--size=42": "[(c!\"size\", .int 42)]", "--fsoptions=QX": "[(c!\"fsopts\", .str c!\"QX\")]", "--label=QX": "[(c!\"label\", .str c!\"QX\")]", "--bytes-per-inode=QX": "REFUSED", "--fsprofile=QX": "[(c!\"fsprofile\", .str c!\"QX\")]", "--encrypted": "[(c!\"encrypted\", .bool true)]", "--passphrase=QX": "[(c!\"passphrase\", .str c!\"QX\")]", "--start=QX": "REFUSED", "--end=QX": "REFUSED", "--escrowcert=QX": "[(c!\"escrowcert\", .str c!\"QX\")]", "--backuppassphrase": "[(c!\"backuppassphrase\", .bool true)]", "--resize": "REFUSED", "--hibernation": "REFUSED", "--cipher=QX": "REFUSED", "--mkfsoptions=QX": "REFUSED", "--luks-version=QX": "REFUSED", "--pbkdf=QX": "REFUSED", "--pbkdf-memory=42": "REFUSED", "--pbkdf-time=42": "REFUSED", "--pbkdf-iterations=42": "REFUSED", "--bytes-per-inode=42": "REFUSED"}}, "190": {"cmd": "partition", "cls": "F14_Partition.cls F17_PartData.cls", "vs": [14000], "base": "/x --onpart=sda1 --size=1", "bi": 1, "lines": ["--resize", "--noformat"], "ok": true, "kind": "L", "d": "[(c!\"lineno\", .int 7), (c!\"active\", .bool false), (c!\"primOnly\", .bool false), (c!\"fstype\", .str c!\"\"), (c!\"grow\", .bool false), (c!\"maxSizeMB\", .int 0), (c!\"format\", .bool true), (c!\"onbiosdisk\", .str c!\"\"), (c!\"disk\", .str c!\"\"), (c!\"onPart\", .str c!\"sda1\"), (c!\"recommended\", .bool false), (c!\"size\", .int 1), (c!\"mountpoint\", .str c!\"/x\"), (c!\"fsopts\", .str c!\"\"), (c!\"label\", .str c!\"\"), (c!\"fsprofile\", .str c!\"\"), (c!\"encrypted\", .bool false), (c!\"passphrase\", .str c!\"\"), (c!\"escrowcert\", .str c!\"\"), (c!\"backuppassphrase\", .bool false), (c!\"resize\", .bool false), (c!\"mntpoint\", .list [c!\"/x\"])]", "bsets": "[]", "rows": {"--resize": "REFUSED", "--noformat": "[(c!\"format\", .bool false)]"}}, "191": {"cmd": "volgroup", "cls": "F16_VolGroup.cls F16_VolGroupData.cls", "vs": [14000, 15000, 16000, 17000, 18000, 11100], "base": "g pv.1", "bi": 0, "lines": ["--noformat", "--pesize=42", "--useexisting", "--reserved-space=42", "--reserved-percent=42"], "ok": true, "kind": "L", "d": "[(c!\"lineno\", .int 7), (c!\"format\", .bool true), (c!\"pesize\", .int 32768), (c!\"preexist\", .bool false), (c!\"vgname\", .str c!\"g\"), (c!\"physvols\", .list [c!\"pv.1\"]), (c!\"reserved_space\", .none), (c!\"reserved_percent\", .none), (c!\"name\", .list [c!\"g\"]), (c!\"partitions\", .list [c!\"pv.1\"])]", "bsets": "[]", "rows": {"--noformat": "REFUSED", "--pesize=42": "[(c!\"pesize\", .int 42)]", "--useexisting": "REFUSED", "--reserved-space=42": "[(c!\"reserved_space\", .int 42)]", "--reserved-percent=42": "[(c!\"reserved_percent\", .int 42)]"}}, "192": {"cmd": "volgroup", "cls": "F16_VolGroup.cls F16_VolGroupData.cls", "vs": [14000, 15000, 16000, 17000, 18000, 11100], "base": "g --noformat", "bi": 1, "lines": [], "ok": true, "kind": "L", "d": "[(c!\"lineno\", .int 7), (c!\"format\", .bool false), (c!\"pesize\", .int 32768), (c!\"preexist\", .bool true), (c!\"vgname\", .str c!\"g\"), (c!\"physvols\", .list []), (c!\"reserved_space\", .none), (c!\"reserved_percent\", .none), (c!\"name\", .list [c!\"g\"]), (c!\"partitions\", .list [])]", "bsets": "[]", "rows": {}}, "193": {"cmd": "volgroup", "cls": "F16_VolGroup.cls F16_VolGroupData.cls", "vs": [14000, 15000, 16000, 17000, 18000, 11100], "base": "g --useexisting", "bi": 2, "lines": ["--noformat"], "ok": true, "kind": "L", "d": "[(c!\"lineno\", .int 7), (c!\"format\", .bool true), (c!\"pesize\", .int 32768), (c!\"preexist\", .bool true), (c!\"vgname\", .str c!\"g\"), (c!\"physvols\", .list []), (c!\"reserved_space\", .none), (c!\"reserved_percent\", .none), (c!\"name\", .list [c!\"g\"]), (c!\"partitions\", .list [])]", "bsets": "[]", "rows": {"--noformat": "[(c!\"format\", .bool false)]"}}, "194": {"cmd": "autopart", "cls": "F17_AutoPart.cls", "vs": [15000], "base": "", "bi": 0, "lines": ["--encrypted", "--passphrase=QX", "--escrowcert=QX", "--backuppassphrase", "--nolvm", "--type=lvm", "--type=btrfs", "--type=plain", "--type=partition", "--cipher=QX", "--type=thinp", "--fstype=QX", "--nohome", "--noboot", "--noswap", "--luks-version=QX", "--pbkdf=QX", "--pbkdf-memory=42", "--pbkdf-time=42", "--pbkdf-iterations=42"], "ok": true, "kind": "P", "d": "[(c!\"autopart\", .bool true), (c!\"encrypted\", .bool false), (c!\"passphrase\", .str c!\"\"), (c!\"escrowcert\", .str c!\"\"), (c!\"backuppassphrase\", .bool false), (c!\"lvm\", .bool true), (c!\"type\", .none)]", "bsets": "[(c!\"autopart\", .bool true)]", "rows": {"--encrypted": "[(c!\"encrypted\", .bool true)]", "--passphrase=QX": "[(c!\"passphrase\", .str c!\"QX\")]", "--escrowcert=QX": "[(c!\"escrowcert\", .str c!\"QX\")]", "--backuppassphrase": "[(c!\"backuppassphrase\", .bool true)]", "--nolvm": "[(c!\"type\", .int 0)]", "--type=lvm": "[(c!\"type\", .int 2)]", "--type=btrfs": "[(c!\"type\", .int 1)]", "--type=plain": "[(c!\"type\", .int 0)]", "--type=partition": "[(c!\"type\", .int 0)]", "--cipher=QX": "REFUSED", "--type=thinp": "REFUSED", "--fstype=QX": "REFUSED", "--nohome": "REFUSED", "--noboot": "REFUSED", "--noswap": "REFUSED", "--luks-version=QX": "REFUSED", "--pbkdf=QX": "REFUSED", "--pbkdf-memory=42": "REFUSED", "--pbkdf-time=42": "REFUSED", "--pbkdf-iterations=42": "REFUSED"}}, "195": {"cmd": "bootloader", "cls": "F17_Bootloader.cls", "vs": [15000], "base": "", "bi": 0, "lines": ["--append=QX", "--location=mbr", "--location=partition", "--location=none", "--location=boot", "--lba32", "--password=QX", "--md5pass=QX", "--upgrade", "--driveorder=QX", "--timeout=42", "--default=QX", "--iscrypted", "--boot-drive=QX", "--leavebootorder", "--extlinux", "--disabled", "--nombr", "--linear", "--nolinear", "--useLilo", "--hvargs=QX"], "ok": true, "kind": "P", "d": "[(c!\"driveorder\", .list []), (c!\"appendLine\", .str c!\"\"), (c!\"location\", .str c!\"mbr\"), (c!\"md5pass\", .str c!\"\"), (c!\"password\", .str c!\"\"), (c!\"upgrade\", .bool false), (c!\"timeout\", .none), (c!\"default\", .str c!\"\"), (c!\"isCrypted\", .bool false), (c!\"bootDrive\", .str c!\"\")]", "bsets": "[(c!\"location\", .str c!\"mbr\")]", "rows": {"--append=QX": "[(c!\"appendLine\", .str c!\"QX\")]", "--location=mbr": "[]", "--location=partition": "[(c!\"location\", .str c!\"partition\")]", "--location=none": "[(c!\"location\", .str c!\"none\")]", "--location=boot": "[(c!\"location\", .str c!\"boot\")]", "--lba32": "REFUSED", "--password=QX": "[(c!\"password\", .str c!\"QX\")]", "--md5pass=QX": "[(c!\"password\", .str c!\"QX\"), (c!\"isCrypted\", .bool true)]", "--upgrade": "[(c!\"upgrade\", .bool true)]", "--driveorder=QX": "[(c!\"driveorder\", .list [c!\"QX\"])]", "--timeout=42": "[(c!\"timeout\", .int 42)]", "--default=QX": "[(c!\"default\", .str c!\"QX\")]", "--iscrypted": "[(c!\"isCrypted\", .bool true)]", "--boot-drive=QX": "[(c!\"bootDrive\", .str c!\"QX\")]", "--leavebootorder": "REFUSED", "--extlinux": "REFUSED", "--disabled": "REFUSED", "--nombr": "REFUSED", "--linear": "REFUSED", "--nolinear": "REFUSED", "--useLilo": "REFUSED", "--hvargs=QX": "REFUSED"}}, "196": {"cmd": "btrfs", "cls": "F17_BTRFS.cls F17_BTRFSData.cls", "vs": [15000, 16000, 17000, 18000, 19000, 20000], "base": "/x a", "bi": 0, "lines": ["--noformat", "--useexisting", "--label=QX", "--data=raid0", "--data=0", "--data=raid1", "--data=1", "--data=raid10", "--data=10", "--data=single", "--metadata=raid0", "--metadata=0", "--metadata=raid1", "--metadata=1", "--metadata=raid10", "--metadata=10", "--metadata=single", "--subvol", "--parent=QX", "--name=QX", "--mkfsoptions=QX"], "ok": true, "kind": "L", "d": "[(c!\"lineno\", .int 7), (c!\"format\", .bool true), (c!\"preexist\", .bool false), (c!\"label\", .str c!\"\"), (c!\"mountpoint\", .str c!\"/x\"), (c!\"devices\", .list [c!\"a\"]), (c!\"dataLevel\", .none), (c!\"metaDataLevel\", .none), (c!\"subvol\", .bool false), (c!\"parent\", .str c!\"\"), (c!\"name\", .str c!\"\")]", "bsets": "[]", "rows": {"--noformat": "[(c!\"format\", .bool false), (c!\"preexist\", .bool true)]", "--useexisting": "[(c!\"format\", .bool false), (c!\"preexist\", .bool true)]", "--label=QX": "[(c!\"label\", .str c!\"QX\")]", "--data=raid0": "[(c!\"dataLevel\", .str c!\"raid0\")]", "--data=0": "[(c!\"dataLevel\", .str c!\"raid0\")]", "--data=raid1": "[(c!\"dataLevel\", .str c!\"raid1\")]", "--data=1": "[(c!\"dataLevel\", .str c!\"raid1\")]", "--data=raid10": "[(c!\"dataLevel\", .str c!\"raid10\")]", "--data=10": "[(c!\"dataLevel\", .str c!\"raid10\")]", "--data=single": "[(c!\"dataLevel\", .str c!\"single\")]", "--metadata=raid0": "[(c!\"metaDataLevel\", .str c!\"raid0\")]", "--metadata=0": "[(c!\"metaDataLevel\", .str c!\"raid0\")]", "--metadata=raid1": "[(c!\"metaDataLevel\", .str c!\"raid1\")]", "--metadata=1": "[(c!\"metaDataLevel\", .str c!\"raid1\")]", "--metadata=raid10": "[(c!\"metaDataLevel\", .str c!\"raid10\")]", "--metadata=10": "[(c!\"metaDataLevel\", .str c!\"raid10\")]", "--metadata=single": "[(c!\"metaDataLevel\", .str c!\"single\")]", "--subvol": "REFUSED", "--parent=QX": "[(c!\"parent\", .str c!\"QX\")]", "--name=QX": "[(c!\"name\", .str c!\"QX\")]", "--mkfsoptions=QX": "REFUSED"}}, "197": {"cmd": "btrfs", "cls": "F17_BTRFS.cls F17_BTRFSData.cls", "vs": [15000, 16000, 17000, 18000, 19000, 20000], "base": "/x --subvol --name=s LABEL=l", "bi": 1, "lines": ["--parent=QX"], "ok": true, "kind": "L", "d": "[(c!\"lineno\", .int 7), (c!\"format\", .bool true), (c!\"preexist\", .bool false), (c!\"label\", .str c!\"\"), (c!\"mountpoint\", .str c!\"/x\"), (c!\"devices\", .list [c!\"LABEL=l\"]), (c!\"dataLevel\", .none), (c!\"metaDataLevel\", .none), (c!\"subvol\", .bool true), (c!\"parent\", .str c!\"\"), (c!\"name\", .str c!\"s\")]", "bsets": "[]", "rows": {"--parent=QX": "[(c!\"parent\", .str c!\"QX\")]"}}, "198": {"cmd": "btrfs", "cls": "F17_BTRFS.cls F17_BTRFSData.cls", "vs": [15000, 16000, 17000, 18000, 19000, 20000], "base": "/x --noformat LABEL=l", "bi": 2, "lines": ["--useexisting"], "ok": true, "kind": "L", "d": "[(c!\"lineno\", .int 7), (c!\"format\", .bool false), (c!\"preexist\", .bool true), (c!\"label\", .str c!\"\"), (c!\"mountpoint\", .str c!\"/x\"), (c!\"devices\", .list [c!\"LABEL=l\"]), (c!\"dataLevel\", .none), (c!\"metaDataLevel\", .none), (c!\"subvol\", .bool false), (c!\"parent\", .str c!\"\"), (c!\"name\", .str c!\"\")]", "bsets": "[]", "rows": {"--useexisting": "[]"}}, "199": {"cmd": "clearpart", "cls": "F17_ClearPart.cls", "vs": [15000, 16000, 17000, 18000], "base": "", "bi": 0, "lines": ["--all", "--drives=QX", "--initlabel", "--linux", "--none", "--list=QX", "--disklabel=QX", "--cdl"], "ok": true, "kind": "P", "d": "[(c!\"drives\", .list []), (c!\"initAll\", .bool false), (c!\"type\", .none), (c!\"devices\", .list [])]", "bsets": "[]", "rows": {"--all": "[(c!\"type\", .int 1)]", "--drives=QX": "[(c!\"drives\", .list [c!\"QX\"])]", "--initlabel": "[(c!\"initAll\", .bool true)]", "--linux": "[(c!\"type\", .int 0)]", "--none": "[(c!\"type\", .int 2)]", "--list=QX": "[(c!\"type\", .int 3), (c!\"devices\", .list [c!\"QX\"])]", "--disklabel=QX": "REFUSED", "--cdl": "REFUSED"}}, "200": {"cmd": "clearpart", "cls": "F17_ClearPart.cls", "vs": [15000, 16000, 17000, 18000], "base": "--all", "bi": 1, "lines": ["--initlabel", "--drives=QX", "--linux"], "ok": true, "kind": "P", "d": "[(c!\"drives\", .list []), (c!\"initAll\", .bool false), (c!\"type\", .int 1), (c!\"devices\", .list [])]", "bsets": "[(c!\"type\", .int 1)]", "rows": {"--initlabel": "[(c!\"initAll\", .bool true)]", "--drives=QX": "[(c!\"drives\", .list [c!\"QX\"])]", "--linux": "[(c!\"type\", .int 0)]"}}, "201": {"cmd": "iscsi", "cls": "F17_Iscsi.cls F17_IscsiData.cls", "vs": [15000, 16000, 17000, 18000, 19000, 20000, 21000, 22000, 23000, 24000, 25000, 26000, 27000, 30000, 31000, 32000, 33000, 34000, 19100, 26100], "base": "--ipaddr=i", "bi": 0, "lines": ["--target=QX", "--ipaddr=QX", "--port=42", "--user=QX", "--password=QX", "--reverse-user=QX", "--reverse-password=QX", "--iface=QX"], "ok": true, "kind": "L", "d": "[(c!\"lineno\", .int 7), (c!\"ipaddr\", .str c!\"i\"), (c!\"port\", .int 3260), (c!\"target\", .str c!\"\"), (c!\"user\", .none), (c!\"password\", .none), (c!\"user_in\", .none), (c!\"password_in\", .none), (c!\"iface\", .none)]", "bsets": "[]", "rows": {"--target=QX": "[(c!\"target\", .str c!\"QX\")]", "--ipaddr=QX": "[(c!\"ipaddr\", .str c!\"QX\")]", "--port=42": "[(c!\"port\", .int 42)]", "--user=QX": "[(c!\"user\", .str c!\"QX\")]", "--password=QX": "[(c!\"password\", .str c!\"QX\")]", "--reverse-user=QX": "[(c!\"user_in\", .str c!\"QX\")]", "--reverse-password=QX": "[(c!\"password_in\", .str c!\"QX\")]", "--iface=QX": "[(c!\"iface\", .str c!\"QX\")]"}}, "202": {"cmd": "logvol", "cls": "F17_LogVol.cls F17_LogVolData.cls", "vs": [15000], "base": "/x --name=n --vgname=g --size=1", "bi": 0, "lines": ["--fstype=QX", "--grow", "--maxsize=42", "--name=QX", "--noformat", "--percent=42", "--recommended", "--size=42", "--useexisting", "--vgname=QX", "--fsoptions=QX", "--bytes-per-inode=QX", "--fsprofile=QX", "--encrypted", "--passphrase=QX", "--escrowcert=QX", "--backuppassphrase", "--label=QX", "--resize", "--hibernation", "--cipher=QX", "--thinpool", "--thin", "--poolname=QX", "--chunksize=42", "--metadatasize=42", "--profile=QX", "--cachesize=42", "--cachemode=QX", "--cachepvs=QX", "--mkfsoptions=QX", "--luks-version=QX", "--pbkdf=QX", "--pbkdf-memory=42", "--pbkdf-time=42", "--pbkdf-iterations=42", "--bytes-per-inode=42"], "ok": true, "kind": "L", "d": "[(c!\"lineno\", .int 7), (c!\"fstype\", .str c!\"\"), (c!\"grow\", .bool false), (c!\"maxSizeMB\", .int 0), (c!\"name\", .str c!\"n\"), (c!\"format\", .bool true), (c!\"percent\", .int 0), (c!\"recommended\", .bool false), (c!\"size\", .int 1), (c!\"preexist\", .bool false), (c!\"vgname\", .str c!\"g\"), (c!\"mountpoint\", .str c!\"/x\"), (c!\"fsopts\", .str c!\"\"), (c!\"fsprofile\", .str c!\"\"), (c!\"encrypted\", .bool false), (c!\"passphrase\", .str c!\"\"), (c!\"escrowcert\", .str c!\"\"), (c!\"backuppassphrase\", .bool false), (c!\"label\", .str c!\"\"), (c!\"resize\", .bool false), (c!\"mntpoint\", .list [c!\"/x\"])]", "bsets": "[]", "rows": {"--fstype=QX": "[(c!\"fstype\", .str c!\"QX\")]", "--grow": "[(c!\"grow\", .bool true)]", "--maxsize=42": "[(c!\"maxSizeMB\", .int 42)]", "--name=QX": "[(c!\"name\", .str c!\"QX\")]", "--noformat": "[(c!\"format\", .bool false), (c!\"preexist\", .bool true)]", "--percent=42": "[(c!\"percent\", .int 42)]", "--recommended": "[(c!\"recommended\", .bool true)]", "--size=42": "[(c!\"size\", .int 42)]", "--useexisting": "[(c!\"preexist\", .bool true)]", "--vgname=QX": "[(c!\"vgname\", .str c!\"QX\")]", "--fsoptions=QX": "[(c!\"fsopts\", .str c!\"QX\")]", "--bytes-per-inode=QX": "REFUSED", "--fsprofile=QX": "[(c!\"fsprofile\", .str c!\"QX\")]", "--encrypted": "[(c!\"encrypted\", .bool true)]", "--passphrase=QX": "[(c!\"passphrase\", .str c!\"QX\")]", "--escrowcert=QX": "[(c!\"escrowcert\", .str c!\"QX\")]", "--backuppassphrase": "[(c!\"backuppassphrase\", .bool true)]", "--label=QX": "[(c!\"label\", .str c!\"QX\")]", "--resize": "REFUSED", "--hibernation": "REFUSED", "--cipher=QX": "REFUSED", "--thinpool": "REFUSED", "--thin": "REFUSED", "--poolname=QX": "REFUSED", "--chunksize=42": "REFUSED", "--metadatasize=42": "REFUSED", "--profile=QX": "REFUSED", "--cachesize=42": "REFUSED", "--cachemode=QX": "REFUSED", "--cachepvs=QX": "REFUSED", "--mkfsoptions=QX": "REFUSED", "--luks-version=QX": "REFUSED", "--pbkdf=QX": "REFUSED", "--pbkdf-memory=42": "REFUSED", "--pbkdf-time=42": "REFUSED", "--pbkdf-iterations=42": "REFUSED", "--bytes-per-inode=42": "REFUSED"}}, "203": {"cmd": "logvol", "cls": "F17_LogVol.cls F17_LogVolData.cls", "vs": [15000], "base": "/x --name=n --vgname=g --useexisting", "bi": 1, "lines": ["--size=42", "--resize", "--noformat", "--fstype=ext4"], "ok": true, "kind": "L", "d": "[(c!\"lineno\", .int 7), (c!\"fstype\", .str c!\"\"), (c!\"grow\", .bool false), (c!\"maxSizeMB\", .int 0), (c!\"name\", .str c!\"n\"), (c!\"format\", .bool true), (c!\"percent\", .int 0), (c!\"recommended\", .bool false), (c!\"size\", .none), (c!\"preexist\", .bool true), (c!\"vgname\", .str c!\"g\"), (c!\"mountpoint\", .str c!\"/x\"), (c!\"fsopts\", .str c!\"\"), (c!\"fsprofile\", .str c!\"\"), (c!\"encrypted\", .bool false), (c!\"passphrase\", .str c!\"\"), (c!\"escrowcert\", .str c!\"\"), (c!\"backuppassphrase\", .bool false), (c!\"label\", .str c!\"\"), (c!\"resize\", .bool false), (c!\"mntpoint\", .list [c!\"/x\"])]", "bsets": "[]", "rows": {"--size=42": "[(c!\"size\", .int 42)]", "--resize": "REFUSED", "--noformat": "[(c!\"format\", .bool false)]", "--fstype=ext4": "[(c!\"fstype\", .str c!\"ext4\")]"}}, "204": {"cmd": "logvol", "cls": "F17_LogVol.cls F17_LogVolData.cls", "vs": [15000], "base": "/x --name=n --vgname=g", "bi": 2, "lines": ["--percent=42", "--useexisting", "--noformat"], "ok": true, "kind": "L", "d": "[(c!\"lineno\", .int 7), (c!\"fstype\", .str c!\"\"), (c!\"grow\", .bool false), (c!\"maxSizeMB\", .int 0), (c!\"name\", .str c!\"n\"), (c!\"format\", .bool true), (c!\"percent\", .int 0), (c!\"recommended\", .bool false), (c!\"size\", .none), (c!\"preexist\", .bool false), (c!\"vgname\", .str c!\"g\"), (c!\"mountpoint\", .str c!\"/x\"), (c!\"fsopts\", .str c!\"\"), (c!\"fsprofile\", .str c!\"\"), (c!\"encrypted\", .bool false), (c!\"passphrase\", .str c!\"\"), (c!\"escrowcert\", .str c!\"\"), (c!\"backuppassphrase\", .bool false), (c!\"label\", .str c!\"\"), (c!\"resize\", .bool false), (c!\"mntpoint\", .list [c!\"/x\"])]", "bsets": "[]", "rows": {"--percent=42": "[(c!\"percent\", .int 42)]", "--useexisting": "[(c!\"preexist\", .bool true)]", "--noformat": "[(c!\"format\", .bool false), (c!\"preexist\", .bool true)]"}}, "205": {"cmd": "logvol", "cls": "F17_LogVol.cls F17_LogVolData.cls", "vs": [15000], "base": "/x --name=n --vgname=g --size=1 --poolname=p", "bi": 3, "lines": ["--thin", "--thinpool", "--label=QX"], "ok": false}, "206": {"cmd": "logvol", "cls": "F17_LogVol.cls F17_LogVolData.cls", "vs": [15000], "base": "none --name=n --vgname=g --size=1 --thinpool", "bi": 4, "lines": ["--chunksize=42", "--metadatasize=42", "--profile=QX", "--grow"], "ok": false}, "207": {"cmd": "logvol", "cls": "F17_LogVol.cls F17_LogVolData.cls", "vs": [15000], "base": "/x --name=n --vgname=g --size=1 --cachepvs=a --cachesize=5", "bi": 5, "lines": ["--cachemode=writeback", "--cachemode=writethrough"], "ok": false}, "208": {"cmd": "part", "cls": "F17_Partition.cls F17_PartData.cls", "vs": [15000], "base": "/x --size=1", "bi": 0, "lines": ["--active", "--asprimary", "--start=42", "--end=42", "--fstype=QX", "--type=QX", "--grow", "--maxsize=42", "--noformat", "--onbiosdisk=QX", "--ondisk=QX", "--ondrive=QX", "--onpart=QX", "--usepart=QX", "--recommended", "--size=42", "--fsoptions=QX", "--label=QX", "--bytes-per-inode=QX", "--fsprofile=QX", "--encrypted", "--passphrase=QX", "--start=QX", "--end=QX", "--escrowcert=QX", "--backuppassphrase", "--resize", "--hibernation", "--cipher=QX", "--mkfsoptions=QX", "--luks-version=QX", "--pbkdf=QX", "--pbkdf-memory=42", "--pbkdf-time=42", "--pbkdf-iterations=42", "--bytes-per-inode=42"], "ok": true, "kind": "L", "d": "[(c!\"lineno\", .int 7), (c!\"active\", .bool false), (c!\"primOnly\", .bool false), (c!\"fstype\", .str c!\"\"), (c!\"grow\", .bool false), (c!\"maxSizeMB\", .int 0), (c!\"format\", .bool true), (c!\"onbiosdisk\", .str c!\"\"), (c!\"disk\", .str c!\"\"), (c!\"onPart\", .str c!\"\"), (c!\"recommended\", .bool false), (c!\"size\", .int 1), (c!\"mountpoint\", .str c!\"/x\"), (c!\"fsopts\", .str c!\"\"), (c!\"label\", .str c!\"\"), (c!\"fsprofile\", .str c!\"\"), (c!\"encrypted\", .bool false), (c!\"passphrase\", .str c!\"\"), (c!\"escrowcert\", .str c!\"\"), (c!\"backuppassphrase\", .bool false), (c!\"resize\", .bool false), (c!\"mntpoint\", .list [c!\"/x\"])]", "bsets": "[]", "rows": {"--active": "[(c!\"active\", .bool true)]", "--asprimary": "[(c!\"primOnly\", .bool true)]", "--start=42": "REFUSED", "--end=42": "REFUSED", "--fstype=QX": "[(c!\"fstype\", .str c!\"QX\")]", "--type=QX": "[(c!\"fstype\", .str c!\"QX\")]", "--grow": "[(c!\"grow\", .bool true)]", "--maxsize=42": "[(c!\"maxSizeMB\", .int 42)]", "--noformat": "[(c!\"format\", .bool false)]", "--onbiosdisk=QX": "[(c!\"onbiosdisk\", .str c!\"QX\")]", "--ondisk=QX": "[(c!\"disk\", .str c!\"QX\")]", "--ondrive=QX": "[(c!\"disk\", .str c!\"QX\")]", "--onpart=QX": "[(c!\"onPart\", .str c!\"QX\")]", "--usepart=QX": "[(c!\"onPart\", .str c!\"QX\")]", "--recommended": "[(c!\"recommended\", .bool true)]", "--size=42": "[(c!\"size\", .int 42)]", "--fsoptions=QX": "[(c!\"fsopts\", .str c!\"QX\")]", "--label=QX": "[(c!\"label\", .str c!\"QX\")]", "--bytes-per-inode=QX": "REFUSED", "--fsprofile=QX": "[(c!\"fsprofile\", .str c!\"QX\")]", "--encrypted": "[(c!\"encrypted\", .bool true)]", "--passphrase=QX": "[(c!\"passphrase\", .str c!\"QX\")]", "--start=QX": "REFUSED", "--end=QX": "REFUSED", "--escrowcert=QX": "[(c!\"escrowcert\", .str c!\"QX\")]", "--backuppassphrase": "[(c!\"backuppassphrase\", .bool true)]", "--resize": "REFUSED", "--hibernation": "REFUSED", "--cipher=QX": "REFUSED", "--mkfsoptions=QX": "REFUSED", "--luks-version=QX": "REFUSED", "--pbkdf=QX": "REFUSED", "--pbkdf-memory=42": "REFUSED", "--pbkdf-time=42": "REFUSED", "--pbkdf-iterations=42": "REFUSED", "--bytes-per-inode=42": "REFUSED"}}, "209": {"cmd": "part", "cls": "F17_Partition.cls F17_PartData.cls", "vs": [15000], "base": "/x --onpart=sda1 --size=1", "bi": 1, "lines": ["--resize", "--noformat"], "ok": true, "kind": "L", "d": "[(c!\"lineno\", .int 7), (c!\"active\", .bool false), (c!\"primOnly\", .bool false), (c!\"fstype\", .str c!\"\"), (c!\"grow\", .bool false), (c!\"maxSizeMB\", .int 0), (c!\"format\", .bool true), (c!\"onbiosdisk\", .str c!\"\"), (c!\"disk\", .str c!\"\"), (c!\"onPart\", .str c!\"sda1\"), (c!\"recommended\", .bool false), (c!\"size\", .int 1), (c!\"mountpoint\", .str c!\"/x\"), (c!\"fsopts\", .str c!\"\"), (c!\"label\", .str c!\"\"), (c!\"fsprofile\", .str c!\"\"), (c!\"encrypted\", .bool false), (c!\"passphrase\", .str c!\"\"), (c!\"escrowcert\", .str c!\"\"), (c!\"backuppassphrase\", .bool false), (c!\"resize\", .bool false), (c!\"mntpoint\", .list [c!\"/x\"])]", "bsets": "[]", "rows": {"--resize": "[(c!\"resize\", .bool true)]", "--noformat": "[(c!\"format\", .bool false)]"}}, "210": {"cmd": "partition", "cls": "F17_Partition.cls F17_PartData.cls", "vs": [15000], "base": "/x --size=1", "bi": 0, "lines": ["--active", "--asprimary", "--start=42", "--end=42", "--fstype=QX", "--type=QX", "--grow", "--maxsize=42", "--noformat", "--onbiosdisk=QX", "--ondisk=QX", "--ondrive=QX", "--onpart=QX", "--usepart=QX", "--recommended", "--size=42", "--fsoptions=QX", "--label=QX", "--bytes-per-inode=QX", "--fsprofile=QX", "--encrypted", "--passphrase=QX", "--start=QX", "--end=QX", "--escrowcert=QX", "--backuppassphrase", "--resize", "--hibernation", "--cipher=QX", "--mkfsoptions=QX", "--luks-version=QX", "--pbkdf=QX", "--pbkdf-memory=42", "--pbkdf-time=42", "--pbkdf-iterations=42", "--bytes-per-inode=42"], "ok": true, "kind": "L", "d": "[(c!\"lineno\", .int 7), (c!\"active\", .bool false), (c!\"primOnly\", .bool false), (c!\"fstype\", .str c!\"\"), (c!\"grow\", .bool false), (c!\"maxSizeMB\", .int 0), (c!\"format\", .bool true), (c!\"onbiosdisk\", .str c!\"\"), (c!\"disk\", .str c!\"\"), (c!\"onPart\", .str c!\"\"), (c!\"recommended\", .bool false), (c!\"size\", .int 1), (c!\"mountpoint\", .str c!\"/x\"), (c!\"fsopts\", .str c!\"\"), (c!\"label\", .str c!\"\"), (c!\"fsprofile\", .str c!\"\"), (c!\"encrypted\", .bool false), (c!\"passphrase\", .str c!\"\"), (c!\"escrowcert\", .str c!\"\"), (c!\"backuppassphrase\", .bool false), (c!\"resize\", .bool false), (c!\"mntpoint\", .list [c!\"/x\"])]", "bsets": "[]", "rows": {"--active": "[(c!\"active\", .bool true)]", "--asprimary": "[(c!\"primOnly\", .bool true)]", "--start=42": "REFUSED", "--end=42": "REFUSED", "--fstype=QX": "[(c!\"fstype\", .str c!\"QX\")]", "--type=QX": "[(c!\"fstype\", .str c!\"QX\")]", "--grow": "[(c!\"grow\", .bool true)]", "--maxsize=42": "[(c!\"maxSizeMB\", .int 42)]", "--noformat": "[(c!\"format\", .bool false)]", "--onbiosdisk=QX": "[(c!\"onbiosdisk\", .str c!\"QX\")]", "--ondisk=QX": "[(c!\"disk\", .str c!\"QX\")]", "--ondrive=QX": "[(c!\"disk\", .str c!\"QX\")]", "--onpart=QX": "[(c!\"onPart\", .str c!\"QX\")]", "--usepart=QX": "[(c!\"onPart\", .str c!\"QX\")]", "--recommended": "[(c!\"recommended\", .bool true)]", "--size=42": "[(c!\"size\", .int 42)]", "--fsoptions=QX": "[(c!\"fsopts\", .str c!\"QX\")]", "--label=QX": "[(c!\"label\", .str c!\"QX\")]", "--bytes-per-inode=QX": "REFUSED", "--fsprofile=QX": "[(c!\"fsprofile\", .str c!\"QX\")]", "--encrypted": "[(c!\"encrypted\", .bool true)]", "--passphrase=QX": "[(c!\"passphrase\", .str c!\"QX\")]", "--start=QX": "REFUSED", "--end=QX": "REFUSED", "--escrowcert=QX": "[(c!\"escrowcert\", .str c!\"QX\")]", "--backuppassphrase": "[(c!\"backuppassphrase\", .bool true)]", "--resize": "REFUSED", "--hibernation": "REFUSED", "--cipher=QX": "REFUSED", "--mkfsoptions=QX": "REFUSED", "--luks-version=QX": "REFUSED", "--pbkdf=QX": "REFUSED", "--pbkdf-memory=42": "REFUSED", "--pbkdf-time=42": "REFUSED", "--pbkdf-iterations=42": "REFUSED", "--bytes-per-inode=42": "REFUSED"}}, "211": {"cmd": "partition", "cls": "F17_Partition.cls F17_PartData.cls", "vs": [15000], "base": "/x --onpart=sda1 --size=1", "bi": 1, "lines": ["--resize", "--noformat"], "ok": true, "kind": "L", "d": "[(c!\"lineno\", .int 7), (c!\"active\", .bool false), (c!\"primOnly\", .bool false), (c!\"fstype\", .str c!\"\"), (c!\"grow\", .bool false), (c!\"maxSizeMB\", .int 0), (c!\"format\", .bool true), (c!\"onbiosdisk\", .str c!\"\"), (c!\"disk\", .str c!\"\"), (c!\"onPart\", .str c!\"sda1\"), (c!\"recommended\", .bool false), (c!\"size\", .int 1), (c!\"mountpoint\", .str c!\"/x\"), (c!\"fsopts\", .str c!\"\"), (c!\"label\", .str c!\"\"), (c!\"fsprofile\", .str c!\"\"), (c!\"encrypted\", .bool false), (c!\"passphrase\", .str c!\"\"), (c!\"escrowcert\", .str c!\"\"), (c!\"backuppassphrase\", .bool false), (c!\"resize\", .bool false), (c!\"mntpoint\", .list [c!\"/x\"])]", "bsets": "[]", "rows": {"--resize": "[(c!\"resize\", .bool true)]", "--noformat": "[(c!\"format\", .bool false)]"}}, "212": {"cmd": "autopart", "cls": "F18_AutoPart.cls", "vs": [16000, 17000], "base": "", "bi": 0, "lines": ["--encrypted", "--passphrase=QX", "--escrowcert=QX", "--backuppassphrase", "--nolvm", "--type=lvm", "--type=btrfs", "--type=plain", "--type=partition", "--cipher=QX", "--type=thinp", "--fstype=QX", "--nohome", "--noboot", "--noswap", "--luks-version=QX", "--pbkdf=QX", "--pbkdf-memory=42", "--pbkdf-time=42", "--pbkdf-iterations=42"], "ok": true, "kind": "P", "d": "[(c!\"autopart\", .bool true), (c!\"encrypted\", .bool false), (c!\"passphrase\", .str c!\"\"), (c!\"escrowcert\", .str c!\"\"), (c!\"backuppassphrase\", .bool false), (c!\"lvm\", .bool true), (c!\"type\", .none), (c!\"cipher\", .str c!\"\")]", "bsets": "[(c!\"autopart\", .bool true)]", "rows": {"--encrypted": "[(c!\"encrypted\", .bool true)]", "--passphrase=QX": "[(c!\"passphrase\", .str c!\"QX\")]", "--escrowcert=QX": "[(c!\"escrowcert\", .str c!\"QX\")]", "--backuppassphrase": "[(c!\"backuppassphrase\", .bool true)]", "--nolvm": "[(c!\"type\", .int 0)]", "--type=lvm": "[(c!\"type\", .int 2)]", "--type=btrfs": "[(c!\"type\", .int 1)]", "--type=plain": "[(c!\"type\", .int 0)]", "--type=partition": "[(c!\"type\", .int 0)]", "--cipher=QX": "[(c!\"cipher\", .str c!\"QX\")]", "--type=thinp": "REFUSED", "--fstype=QX": "REFUSED", "--nohome": "REFUSED", "--noboot": "REFUSED", "--noswap": "REFUSED", "--luks-version=QX": "REFUSED", "--pbkdf=QX": "REFUSED", "--pbkdf-memory=42": "REFUSED", "--pbkdf-time=42": "REFUSED", "--pbkdf-iterations=42": "REFUSED"}}, "213": {"cmd": "bootloader", "cls": "F18_Bootloader.cls", "vs": [16000], "base": "", "bi": 0, "lines": ["--append=QX", "--location=mbr", "--location=partition", "--location=none", "--location=boot", "--lba32", "--password=QX", "--md5pass=QX", "--upgrade", "--driveorder=QX", "--timeout=42", "--default=QX", "--iscrypted", "--boot-drive=QX", "--leavebootorder", "--extlinux", "--disabled", "--nombr", "--linear", "--nolinear", "--useLilo", "--hvargs=QX"], "ok": true, "kind": "P", "d": "[(c!\"driveorder\", .list []), (c!\"appendLine\", .str c!\"\"), (c!\"location\", .str c!\"mbr\"), (c!\"md5pass\", .str c!\"\"), (c!\"password\", .str c!\"\"), (c!\"upgrade\", .bool false), (c!\"timeout\", .none), (c!\"default\", .str c!\"\"), (c!\"isCrypted\", .bool false), (c!\"bootDrive\", .str c!\"\"), (c!\"leavebootorder\", .bool false)]", "bsets": "[(c!\"location\", .str c!\"mbr\")]", "rows": {"--append=QX": "[(c!\"appendLine\", .str c!\"QX\")]", "--location=mbr": "[]", "--location=partition": "[(c!\"location\", .str c!\"partition\")]", "--location=none": "[(c!\"location\", .str c!\"none\")]", "--location=boot": "[(c!\"location\", .str c!\"boot\")]", "--lba32": "REFUSED", "--password=QX": "[(c!\"password\", .str c!\"QX\")]", "--md5pass=QX": "[(c!\"password\", .str c!\"QX\"), (c!\"isCrypted\", .bool true)]", "--upgrade": "[(c!\"upgrade\", .bool true)]", "--driveorder=QX": "[(c!\"driveorder\", .list [c!\"QX\"])]", "--timeout=42": "[(c!\"timeout\", .int 42)]", "--default=QX": "[(c!\"default\", .str c!\"QX\")]", "--iscrypted": "[(c!\"isCrypted\", .bool true)]", "--boot-drive=QX": "[(c!\"bootDrive\", .str c!\"QX\")]", "--leavebootorder": "[(c!\"leavebootorder\", .bool true)]", "--extlinux": "REFUSED", "--disabled": "REFUSED", "--nombr": "REFUSED", "--linear": "REFUSED", "--nolinear": "REFUSED", "--useLilo": "REFUSED", "--hvargs=QX": "REFUSED"}}, "214": {"cmd": "fcoe", "cls": "F13_Fcoe.cls RHEL7_FcoeData.cls", "vs": [16000], "base": "--nic=n", "bi": 0, "lines": ["--nic=QX", "--dcb", "--autovlan"], "ok": true, "kind": "L", "d": "[(c!\"lineno\", .int 7), (c!\"nic\", .str c!\"n\"), (c!\"dcb\", .bool false), (c!\"autovlan\", .bool false)]", "bsets": "[]", "rows": {"--nic=QX": "[(c!\"nic\", .str c!\"QX\")]", "--dcb": "[(c!\"dcb\", .bool true)]", "--autovlan": "REFUSED"}}, "215": {"cmd": "halt", "cls": "F18_Reboot.cls", "vs": [16000, 17000, 18000, 19000, 20000, 19100], "base": "", "bi": 0, "lines": ["--eject", "--kexec"], "ok": true, "kind": "P", "d": "[(c!\"action\", .int 0), (c!\"eject\", .bool false)]", "bsets": "[(c!\"action\", .int 0)]", "rows": {"--eject": "[(c!\"eject\", .bool true)]", "--kexec": "REFUSED"}}, "216": {"cmd": "keyboard", "cls": "F18_Keyboard.cls", "vs": [16000, 17000, 18000, 19000, 20000, 21000, 22000, 23000, 24000, 25000, 26000, 27000, 30000, 31000, 32000, 33000, 34000, 19100, 26100], "base": "K", "bi": 0, "lines": ["--vckeymap=QX", "--xlayouts=QX", "--switch=QX"], "ok": true, "kind": "P", "d": "[(c!\"_keyboard\", .str c!\"K\"), (c!\"vc_keymap\", .str c!\"\"), (c!\"x_layouts\", .list []), (c!\"switch_options\", .list []), (c!\"kbd\", .list [c!\"K\"])]", "bsets": "[(c!\"_keyboard\", .str c!\"K\"), (c!\"kbd\", .list [c!\"K\"])]", "rows": {"--vckeymap=QX": "[(c!\"vc_keymap\", .str c!\"QX\")]", "--xlayouts=QX": "[(c!\"x_layouts\", .list [c!\"QX\"])]", "--switch=QX": "[(c!\"switch_options\", .list [c!\"QX\"])]"}}, "217": {"cmd": "keyboard", "cls": "F18_Keyboard.cls", "vs": [16000, 17000, 18000, 19000, 20000, 21000, 22000, 23000, 24000, 25000, 26000, 27000, 30000, 31000, 32000, 33000, 34000, 19100, 26100], "base": "--vckeymap=v", "bi": 1, "lines": ["--xlayouts=QX", "--switch=QX"], "ok": true, "kind": "P", "d": "[(c!\"_keyboard\", .str c!\"\"), (c!\"vc_keymap\", .str c!\"v\"), (c!\"x_layouts\", .list []), (c!\"switch_options\", .list []), (c!\"kbd\", .list [])]", "bsets": "[(c!\"vc_keymap\", .str c!\"v\"), (c!\"kbd\", .list [])]", "rows": {"--xlayouts=QX": "[(c!\"x_layouts\", .list [c!\"QX\"])]", "--switch=QX": "[(c!\"switch_options\", .list [c!\"QX\"])]"}}, "218": {"cmd": "logvol", "cls": "F18_LogVol.cls F18_LogVolData.cls", "vs": [16000], "base": "/x --name=n --vgname=g --size=1", "bi": 0, "lines": ["--fstype=QX", "--grow", "--maxsize=42", "--name=QX", "--noformat", "--percent=42", "--recommended", "--size=42", "--useexisting", "--vgname=QX", "--fsoptions=QX", "--bytes-per-inode=QX", "--fsprofile=QX", "--encrypted", "--passphrase=QX", "--escrowcert=QX", "--backuppassphrase", "--label=QX", "--resize", "--hibernation", "--cipher=QX", "--thinpool", "--thin", "--poolname=QX", "--chunksize=42", "--metadatasize=42", "--profile=QX", "--cachesize=42", "--cachemode=QX", "--cachepvs=QX", "--mkfsoptions=QX", "--luks-version=QX", "--pbkdf=QX", "--pbkdf-memory=42", "--pbkdf-time=42", "--pbkdf-iterations=42", "--bytes-per-inode=42"], "ok": true, "kind": "L", "d": "[(c!\"lineno\", .int 7), (c!\"fstype\", .str c!\"\"), (c!\"grow\", .bool false), (c!\"maxSizeMB\", .int 0), (c!\"name\", .str c!\"n\"), (c!\"format\", .bool true), (c!\"percent\", .int 0), (c!\"recommended\", .bool false), (c!\"size\", .int 1), (c!\"preexist\", .bool false), (c!\"vgname\", .str c!\"g\"), (c!\"mountpoint\", .str c!\"/x\"), (c!\"fsopts\", .str c!\"\"), (c!\"fsprofile\", .str c!\"\"), (c!\"encrypted\", .bool false), (c!\"passphrase\", .str c!\"\"), (c!\"escrowcert\", .str c!\"\"), (c!\"backuppassphrase\", .bool false), (c!\"label\", .str c!\"\"), (c!\"resize\", .bool false), (c!\"hibernation\", .bool false), (c!\"cipher\", .str c!\"\"), (c!\"mntpoint\", .list [c!\"/x\"])]", "bsets": "[]", "rows": {"--fstype=QX": "[(c!\"fstype\", .str c!\"QX\")]", "--grow": "[(c!\"grow\", .bool true)]", "--maxsize=42": "[(c!\"maxSizeMB\", .int 42)]", "--name=QX": "[(c!\"name\", .str c!\"QX\")]", "--noformat": "[(c!\"format\", .bool false), (c!\"preexist\", .bool true)]", "--percent=42": "[(c!\"percent\", .int 42)]", "--recommended": "[(c!\"recommended\", .bool true)]", "--size=42": "[(c!\"size\", .int 42)]", "--useexisting": "[(c!\"preexist\", .bool true)]", "--vgname=QX": "[(c!\"vgname\", .str c!\"QX\")]", "--fsoptions=QX": "[(c!\"fsopts\", .str c!\"QX\")]", "--bytes-per-inode=QX": "REFUSED", "--fsprofile=QX": "[(c!\"fsprofile\", .str c!\"QX\")]", "--encrypted": "[(c!\"encrypted\", .bool true)]", "--passphrase=QX": "[(c!\"passphrase\", .str c!\"QX\")]", "--escrowcert=QX": "[(c!\"escrowcert\", .str c!\"QX\")]", "--backuppassphrase": "[(c!\"backuppassphrase\", .bool true)]", "--label=QX": "[(c!\"label\", .str c!\"QX\")]", "--resize": "REFUSED", "--hibernation": "[(c!\"hibernation\", .bool true)]", "--cipher=QX": "[(c!\"cipher\", .str c!\"QX\")]", "--thinpool": "REFUSED", "--thin": "REFUSED", "--poolname=QX": "REFUSED", "--chunksize=42": "REFUSED", "--metadatasize=42": "REFUSED", "--profile=QX": "REFUSED", "--cachesize=42": "REFUSED", "--cachemode=QX": "REFUSED", "--cachepvs=QX": "REFUSED", "--mkfsoptions=QX": "REFUSED", "--luks-version=QX": "REFUSED", "--pbkdf=QX": "REFUSED", "--pbkdf-memory=42": "REFUSED", "--pbkdf-time=42": "REFUSED", "--pbkdf-iterations=42": "REFUSED", "--bytes-per-inode=42": "REFUSED"}}, "219": {"cmd": "logvol", "cls": "F18_LogVol.cls F18_LogVolData.cls", "vs": [16000], "base": "/x --name=n --vgname=g --useexisting", "bi": 1, "lines": ["--size=42", "--resize", "--noformat", "--fstype=ext4"], "ok": true, "kind": "L", "d": "[(c!\"lineno\", .int 7), (c!\"fstype\", .str c!\"\"), (c!\"grow\", .bool false), (c!\"maxSizeMB\", .int 0), (c!\"name\", .str c!\"n\"), (c!\"format\", .bool true), (c!\"percent\", .int 0), (c!\"recommended\", .bool false), (c!\"size\", .none), (c!\"preexist\", .bool true), (c!\"vgname\", .str c!\"g\"), (c!\"mountpoint\", .str c!\"/x\"), (c!\"fsopts\", .str c!\"\"), (c!\"fsprofile\", .str c!\"\"), (c!\"encrypted\", .bool false), (c!\"passphrase\", .str c!\"\"), (c!\"escrowcert\", .str c!\"\"), (c!\"backuppassphrase\", .bool false), (c!\"label\", .str c!\"\"), (c!\"resize\", .bool false), (c!\"hibernation\", .bool false), (c!\"cipher\", .str c!\"\"), (c!\"mntpoint\", .list [c!\"/x\"])]", "bsets": "[]", "rows": {"--size=42": "[(c!\"size\", .int 42)]", "--resize": "REFUSED", "--noformat": "[(c!\"format\", .bool false)]", "--fstype=ext4": "[(c!\"fstype\", .str c!\"ext4\")]"}}, "220": {"cmd": "logvol", "cls": "F18_LogVol.cls F18_LogVolData.cls", "vs": [16000], "base": "/x --name=n --vgname=g", "bi": 2, "lines": ["--percent=42", "--useexisting", "--noformat"], "ok": true, "kind": "L", "d": "[(c!\"lineno\", .int 7), (c!\"fstype\", .str c!\"\"), (c!\"grow\", .bool false), (c!\"maxSizeMB\", .int 0), (c!\"name\", .str c!\"n\"), (c!\"format\", .bool true), (c!\"percent\", .int 0), (c!\"recommended\", .bool false), (c!\"size\", .none), (c!\"preexist\", .bool false), (c!\"vgname\", .str c!\"g\"), (c!\"mountpoint\", .str c!\"/x\"), (c!\"fsopts\", .str c!\"\"), (c!\"fsprofile\", .str c!\"\"), (c!\"encrypted\", .bool false), (c!\"passphrase\", .str c!\"\"), (c!\"escrowcert\", .str c!\"\"), (c!\"backuppassphrase\", .bool false), (c!\"label\", .str c!\"\"), (c!\"resize\", .bool false), (c!\"hibernation\", .bool false), (c!\"cipher\", .str c!\"\"), (c!\"mntpoint\", .list [c!\"/x\"])]", "bsets": "[]", "rows": {"--percent=42": "[(c!\"percent\", .int 42)]", "--useexisting": "[(c!\"preexist\", .bool true)]", "--noformat": "[(c!\"format\", .bool false), (c!\"preexist\", .bool true)]"}}, "221": {"cmd": "logvol", "cls": "F18_LogVol.cls F18_LogVolData.cls", "vs": [16000], "base": "/x --name=n --vgname=g --size=1 --poolname=p", "bi": 3, "lines": ["--thin", "--thinpool", "--label=QX"], "ok": false}, "222": {"cmd": "logvol", "cls": "F18_LogVol.cls F18_LogVolData.cls", "vs": [16000], "base": "none --name=n --vgname=g --size=1 --thinpool", "bi": 4, "lines": ["--chunksize=42", "--metadatasize=42", "--profile=QX", "--grow"], "ok": false}, "223": {"cmd": "logvol", "cls": "F18_LogVol.cls F18_LogVolData.cls", "vs": [16000], "base": "/x --name=n --vgname=g --size=1 --cachepvs=a --cachesize=5", "bi": 5, "lines": ["--cachemode=writeback", "--cachemode=writethrough"], "ok": false}, "224": {"cmd": "network", "cls": "F18_Network.cls F16_NetworkData.cls", "vs": [16000], "base": "", "bi": 0, "lines": ["--bootproto=dhcp", "--bootproto=bootp", "--bootproto=static", "--bootproto=query", "--dhcpclass=QX", "--device=QX", "--essid=QX", "--ethtool=QX", "--gateway=QX", "--hostname=QX", "--ip=QX", "--mtu=QX", "--nameserver=QX", "--netmask=QX", "--nodns", "--onboot=yes", "--onboot=off", "--wepkey=QX", "--notksdevice", "--noipv4", "--noipv6", "--ipv6=QX", "--bootproto=ibft", "--activate", "--nodefroute", "--wpakey=QX", "--bondslaves=QX", "--bondopts=QX", "--vlanid=QX", "--ipv6gateway=QX", "--teamslaves=QX", "--teamconfig=QX", "--interfacename=QX", "--bridgeslaves=QX", "--bridgeopts=QX", "--no-activate", "--bindto=mac"], "ok": true, "kind": "L", "d": "[(c!\"lineno\", .int 7), (c!\"bootProto\", .str c!\"dhcp\"), (c!\"dhcpclass\", .str c!\"\"), (c!\"device\", .str c!\"\"), (c!\"essid\", .str c!\"\"), (c!\"ethtool\", .str c!\"\"), (c!\"gateway\", .str c!\"\"), (c!\"hostname\", .str c!\"\"), (c!\"ip\", .str c!\"\"), (c!\"mtu\", .str c!\"\"), (c!\"nameserver\", .str c!\"\"), (c!\"netmask\", .str c!\"\"), (c!\"nodns\", .bool false), (c!\"onboot\", .bool true), (c!\"wepkey\", .str c!\"\"), (c!\"notksdevice\", .bool false), (c!\"noipv4\", .bool false), (c!\"noipv6\", .bool false), (c!\"ipv6\", .str c!\"\"), (c!\"activate\", .none), (c!\"nodefroute\", .bool false), (c!\"wpakey\", .str c!\"\")]", "bsets": "[]", "rows": {"--bootproto=dhcp": "[]", "--bootproto=bootp": "[(c!\"bootProto\", .str c!\"bootp\")]", "--bootproto=static": "[(c!\"bootProto\", .str c!\"static\")]", "--bootproto=query": "[(c!\"bootProto\", .str c!\"query\")]", "--dhcpclass=QX": "[(c!\"dhcpclass\", .str c!\"QX\")]", "--device=QX": "[(c!\"device\", .str c!\"QX\")]", "--essid=QX": "[(c!\"essid\", .str c!\"QX\")]", "--ethtool=QX": "[(c!\"ethtool\", .str c!\"QX\")]", "--gateway=QX": "[(c!\"gateway\", .str c!\"QX\")]", "--hostname=QX": "[(c!\"hostname\", .str c!\"QX\")]", "--ip=QX": "[(c!\"ip\", .str c!\"QX\")]", "--mtu=QX": "[(c!\"mtu\", .str c!\"QX\")]", "--nameserver=QX": "[(c!\"nameserver\", .str c!\"QX\")]", "--netmask=QX": "[(c!\"netmask\", .str c!\"QX\")]", "--nodns": "[(c!\"nodns\", .bool true)]", "--onboot=yes": "[]", "--onboot=off": "[(c!\"onboot\", .bool false)]", "--wepkey=QX": "[(c!\"wepkey\", .str c!\"QX\")]", "--notksdevice": "[(c!\"notksdevice\", .bool true)]", "--noipv4": "[(c!\"noipv4\", .bool true)]", "--noipv6": "[(c!\"noipv6\", .bool true)]", "--ipv6=QX": "[(c!\"ipv6\", .str c!\"QX\")]", "--bootproto=ibft": "[(c!\"bootProto\", .str c!\"ibft\")]", "--activate": "[(c!\"activate\", .bool true)]", "--nodefroute": "[(c!\"nodefroute\", .bool true)]", "--wpakey=QX": "[(c!\"wpakey\", .str c!\"QX\")]", "--bondslaves=QX": "REFUSED", "--bondopts=QX": "REFUSED", "--vlanid=QX": "REFUSED", "--ipv6gateway=QX": "REFUSED", "--teamslaves=QX": "REFUSED", "--teamconfig=QX": "REFUSED", "--interfacename=QX": "REFUSED", "--bridgeslaves=QX": "REFUSED", "--bridgeopts=QX": "REFUSED", "--no-activate": "REFUSED", "--bindto=mac": "REFUSED"}}, "225": {"cmd": "network", "cls": "F18_Network.cls F16_NetworkData.cls", "vs": [16000], "base": "--device=b --bridgeslaves=e", "bi": 1, "lines": ["--bridgeopts=stp=6", "--bridgeopts=stp", "--bridgeslaves=a,b"], "ok": false}, "226": {"cmd": "network", "cls": "F18_Network.cls F16_NetworkData.cls", "vs": [16000], "base": "--bootproto=static --ip=i", "bi": 2, "lines": ["--netmask=QX", "--gateway=QX"], "ok": true, "kind": "L", "d": "[(c!\"lineno\", .int 7), (c!\"bootProto\", .str c!\"static\"), (c!\"dhcpclass\", .str c!\"\"), (c!\"device\", .str c!\"\"), (c!\"essid\", .str c!\"\"), (c!\"ethtool\", .str c!\"\"), (c!\"gateway\", .str c!\"\"), (c!\"hostname\", .str c!\"\"), (c!\"ip\", .str c!\"i\"), (c!\"mtu\", .str c!\"\"), (c!\"nameserver\", .str c!\"\"), (c!\"netmask\", .str c!\"\"), (c!\"nodns\", .bool false), (c!\"onboot\", .bool true), (c!\"wepkey\", .str c!\"\"), (c!\"notksdevice\", .bool false), (c!\"noipv4\", .bool false), (c!\"noipv6\", .bool false), (c!\"ipv6\", .str c!\"\"), (c!\"activate\", .none), (c!\"nodefroute\", .bool false), (c!\"wpakey\", .str c!\"\")]", "bsets": "[]", "rows": {"--netmask=QX": "[(c!\"netmask\", .str c!\"QX\")]", "--gateway=QX": "[(c!\"gateway\", .str c!\"QX\")]"}}, "227": {"cmd": "network", "cls": "F18_Network.cls F16_NetworkData.cls", "vs": [16000], "base": "--device=t", "bi": 3, "lines": ["--teamslaves=a", "--bondslaves=a,b", "--vlanid=5"], "ok": true, "kind": "L", "d": "[(c!\"lineno\", .int 7), (c!\"bootProto\", .str c!\"dhcp\"), (c!\"dhcpclass\", .str c!\"\"), (c!\"device\", .str c!\"t\"), (c!\"essid\", .str c!\"\"), (c!\"ethtool\", .str c!\"\"), (c!\"gateway\", .str c!\"\"), (c!\"hostname\", .str c!\"\"), (c!\"ip\", .str c!\"\"), (c!\"mtu\", .str c!\"\"), (c!\"nameserver\", .str c!\"\"), (c!\"netmask\", .str c!\"\"), (c!\"nodns\", .bool false), (c!\"onboot\", .bool true), (c!\"wepkey\", .str c!\"\"), (c!\"notksdevice\", .bool false), (c!\"noipv4\", .bool false), (c!\"noipv6\", .bool false), (c!\"ipv6\", .str c!\"\"), (c!\"activate\", .none), (c!\"nodefroute\", .bool false), (c!\"wpakey\", .str c!\"\")]", "bsets": "[]", "rows": {"--teamslaves=a": "REFUSED", "--bondslaves=a,b": "REFUSED", "--vlanid=5": "REFUSED"}}, "228": {"cmd": "part", "cls": "F18_Partition.cls F18_PartData.cls", "vs": [16000, 17000], "base": "/x --size=1", "bi": 0, "lines": ["--active", "--asprimary", "--start=42", "--end=42", "--fstype=QX", "--type=QX", "--grow", "--maxsize=42", "--noformat", "--onbiosdisk=QX", "--ondisk=QX", "--ondrive=QX", "--onpart=QX", "--usepart=QX", "--recommended", "--size=42", "--fsoptions=QX", "--label=QX", "--bytes-per-inode=QX", "--fsprofile=QX", "--encrypted", "--passphrase=QX", "--start=QX", "--end=QX", "--escrowcert=QX", "--backuppassphrase", "--resize", "--hibernation", "--cipher=QX", "--mkfsoptions=QX", "--luks-version=QX", "--pbkdf=QX", "--pbkdf-memory=42", "--pbkdf-time=42", "--pbkdf-iterations=42", "--bytes-per-inode=42"], "ok": true, "kind": "L", "d": "[(c!\"lineno\", .int 7), (c!\"active\", .bool false), (c!\"primOnly\", .bool false), (c!\"fstype\", .str c!\"\"), (c!\"grow\", .bool false), (c!\"maxSizeMB\", .int 0), (c!\"format\", .bool true), (c!\"onbiosdisk\", .str c!\"\"), (c!\"disk\", .str c!\"\"), (c!\"onPart\", .str c!\"\"), (c!\"recommended\", .bool false), (c!\"size\", .int 1), (c!\"mountpoint\", .str c!\"/x\"), (c!\"fsopts\", .str c!\"\"), (c!\"label\", .str c!\"\"), (c!\"fsprofile\", .str c!\"\"), (c!\"encrypted\", .bool false), (c!\"passphrase\", .str c!\"\"), (c!\"escrowcert\", .str c!\"\"), (c!\"backuppassphrase\", .bool false), (c!\"resize\", .bool false), (c!\"hibernation\", .bool false), (c!\"cipher\", .str c!\"\"), (c!\"mntpoint\", .list [c!\"/x\"])]", "bsets": "[]", "rows": {"--active": "[(c!\"active\", .bool true)]", "--asprimary": "[(c!\"primOnly\", .bool true)]", "--start=42": "REFUSED", "--end=42": "REFUSED", "--fstype=QX": "[(c!\"fstype\", .str c!\"QX\")]", "--type=QX": "[(c!\"fstype\", .str c!\"QX\")]", "--grow": "[(c!\"grow\", .bool true)]", "--maxsize=42": "[(c!\"maxSizeMB\", .int 42)]", "--noformat": "[(c!\"format\", .bool false)]", "--onbiosdisk=QX": "[(c!\"onbiosdisk\", .str c!\"QX\")]", "--ondisk=QX": "[(c!\"disk\", .str c!\"QX\")]", "--ondrive=QX": "[(c!\"disk\", .str c!\"QX\")]", "--onpart=QX": "[(c!\"onPart\", .str c!\"QX\")]", "--usepart=QX": "[(c!\"onPart\", .str c!\"QX\")]", "--recommended": "[(c!\"recommended\", .bool true)]", "--size=42": "[(c!\"size\", .int 42)]", "--fsoptions=QX": "[(c!\"fsopts\", .str c!\"QX\")]", "--label=QX": "[(c!\"label\", .str c!\"QX\")]", "--bytes-per-inode=QX": "REFUSED", "--fsprofile=QX": "[(c!\"fsprofile\", .str c!\"QX\")]", "--encrypted": "[(c!\"encrypted\", .bool true)]", "--passphrase=QX": "[(c!\"passphrase\", .str c!\"QX\")]", "--start=QX": "REFUSED", "--end=QX": "REFUSED", "--escrowcert=QX": "[(c!\"escrowcert\", .str c!\"QX\")]", "--backuppassphrase": "[(c!\"backuppassphrase\", .bool true)]", "--resize": "REFUSED", "--hibernation": "[(c!\"hibernation\", .bool true)]", "--cipher=QX": "[(c!\"cipher\", .str c!\"QX\")]", "--mkfsoptions=QX": "REFUSED", "--luks-version=QX": "REFUSED", "--pbkdf=QX": "REFUSED", "--pbkdf-memory=42": "REFUSED", "--pbkdf-time=42": "REFUSED", "--pbkdf-iterations=42": "REFUSED", "--bytes-per-inode=42": "REFUSED"}}, "229": {"cmd": "part", "cls": "F18_Partition.cls F18_PartData.cls", "vs": [16000, 17000], "base": "/x --onpart=sda1 --size=1", "bi": 1, "lines": ["--resize", "--noformat"], "ok": true, "kind": "L", "d": "[(c!\"lineno\", .int 7), (c!\"active\", .bool false), (c!\"primOnly\", .bool false), (c!\"fstype\", .str c!\"\"), (c!\"grow\", .bool false), (c!\"maxSizeMB\", .int 0), (c!\"format\", .bool true), (c!\"onbiosdisk\", .str c!\"\"), (c!\"disk\", .str c!\"\"), (c!\"onPart\", .str c!\"sda1\"), (c!\"recommended\", .bool false), (c!\"size\", .int 1), (c!\"mountpoint\", .str c!\"/x\"), (c!\"fsopts\", .str c!\"\"), (c!\"label\", .str c!\"\"), (c!\"fsprofile\", .str c!\"\"), (c!\"encrypted\", .bool false), (c!\"passphrase\", .str c!\"\"), (c!\"escrowcert\", .str c!\"\"), (c!\"backuppassphrase\", .bool false), (c!\"resize\", .bool false), (c!\"hibernation\", .bool false), (c!\"cipher\", .str c!\"\"), (c!\"mntpoint\", .list [c!\"/x\"])]", "bsets": "[]", "rows": {"--resize": "[(c!\"resize\", .bool true)]", "--noformat": "[(c!\"format\", .bool false)]"}}, "230": {"cmd": "partition", "cls": "F18_Partition.cls F18_PartData.cls", "vs": [16000, 17000], "base": "/x --size=1", "bi": 0, "lines": ["--active", "--asprimary", "--start=42", "--end=42", "--fstype=QX", "--type=QX", "--grow", "--maxsize=42", "--noformat", "--onbiosdisk=QX", "--ondisk=QX", "--ondrive=QX", "--onpart=QX", "--usepart=QX", "--recommended", "--size=42", "--fsoptions=QX", "--label=QX", "--bytes-per-inode=QX", "--fsprofile=QX", "--encrypted", "--passphrase=QX", "--start=QX", "--end=QX", "--escrowcert=QX", "--backuppassphrase", "--resize", "--hibernation", "--cipher=QX", "--mkfsoptions=QX", "--luks-version=QX", "--pbkdf=QX", "--pbkdf-memory=42", "--pbkdf-time=42", "--pbkdf-iterations=42", "--bytes-per-inode=42"], "ok": true, "kind": "L", "d": "[(c!\"lineno\", .int 7), (c!\"active\", .bool false), (c!\"primOnly\", .bool false), (c!\"fstype\", .str c!\"\"), (c!\"grow\", .bool false), (c!\"maxSizeMB\", .int 0), (c!\"format\", .bool true), (c!\"onbiosdisk\", .str c!\"\"), (c!\"disk\", .str c!\"\"), (c!\"onPart\", .str c!\"\"), (c!\"recommended\", .bool false), (c!\"size\", .int 1), (c!\"mountpoint\", .str c!\"/x\"), (c!\"fsopts\", .str c!\"\"), (c!\"label\", .str c!\"\"), (c!\"fsprofile\", .str c!\"\"), (c!\"encrypted\", .bool false), (c!\"passphrase\", .str c!\"\"), (c!\"escrowcert\", .str c!\"\"), (c!\"backuppassphrase\", .bool false), (c!\"resize\", .bool false), (c!\"hibernation\", .bool false), (c!\"cipher\", .str c!\"\"), (c!\"mntpoint\", .list [c!\"/x\"])]", "bsets": "[]", "rows": {"--active": "[(c!\"active\", .bool true)]", "--asprimary": "[(c!\"primOnly\", .bool true)]", "--start=42": "REFUSED", "--end=42": "REFUSED", "--fstype=QX": "[(c!\"fstype\", .str c!\"QX\")]", "--type=QX": "[(c!\"fstype\", .str c!\"QX\")]", "--grow": "[(c!\"grow\", .bool true)]", "--maxsize=42": "[(c!\"maxSizeMB\", .int 42)]", "--noformat": "[(c!\"format\", .bool false)]", "--onbiosdisk=QX": "[(c!\"onbiosdisk\", .str c!\"QX\")]", "--ondisk=QX": "[(c!\"disk\", .str c!\"QX\")]", "--ondrive=QX": "[(c!\"disk\", .str c!\"QX\")]", "--onpart=QX": "[(c!\"onPart\", .str c!\"QX\")]", "--usepart=QX": "[(c!\"onPart\", .str c!\"QX\")]", "--recommended": "[(c!\"recommended\", .bool true)]", "--size=42": "[(c!\"size\", .int 42)]", "--fsoptions=QX": "[(c!\"fsopts\", .str c!\"QX\")]", "--label=QX": "[(c!\"label\", .str c!\"QX\")]", "--bytes-per-inode=QX": "REFUSED", "--fsprofile=QX": "[(c!\"fsprofile\", .str c!\"QX\")]", "--encrypted": "[(c!\"encrypted\", .bool true)]", "--passphrase=QX": "[(c!\"passphrase\", .str c!\"QX\")]", "--start=QX": "REFUSED", "--end=QX": "REFUSED", "--escrowcert=QX": "[(c!\"escrowcert\", .str c!\"QX\")]", "--backuppassphrase": "[(c!\"backuppassphrase\", .bool true)]", "--resize": "REFUSED", "--hibernation": "[(c!\"hibernation\", .bool true)]", "--cipher=QX": "[(c!\"cipher\", .str c!\"QX\")]", "--mkfsoptions=QX": "REFUSED", "--luks-version=QX": "REFUSED", "--pbkdf=QX": "REFUSED", "--pbkdf-memory=42": "REFUSED", "--pbkdf-time=42": "REFUSED", "--pbkdf-iterations=42": "REFUSED", "--bytes-per-inode=42": "REFUSED"}}, "231": {"cmd": "partition", "cls": "F18_Partition.cls F18_PartData.cls", "vs": [16000, 17000], "base": "/x --onpart=sda1 --size=1", "bi": 1, "lines": ["--resize", "--noformat"], "ok": true, "kind": "L", "d": "[(c!\"lineno\", .int 7), (c!\"active\", .bool false), (c!\"primOnly\", .bool false), (c!\"fstype\", .str c!\"\"), (c!\"grow\", .bool false), (c!\"maxSizeMB\", .int 0), (c!\"format\", .bool true), (c!\"onbiosdisk\", .str c!\"\"), (c!\"disk\", .str c!\"\"), (c!\"onPart\", .str c!\"sda1\"), (c!\"recommended\", .bool false), (c!\"size\", .int 1), (c!\"mountpoint\", .str c!\"/x\"), (c!\"fsopts\", .str c!\"\"), (c!\"label\", .str c!\"\"), (c!\"fsprofile\", .str c!\"\"), (c!\"encrypted\", .bool false), (c!\"passphrase\", .str c!\"\"), (c!\"escrowcert\", .str c!\"\"), (c!\"backuppassphrase\", .bool false), (c!\"resize\", .bool false), (c!\"hibernation\", .bool false), (c!\"cipher\", .str c!\"\"), (c!\"mntpoint\", .list [c!\"/x\"])]", "bsets": "[]", "rows": {"--resize": "[(c!\"resize\", .bool true)]", "--noformat": "[(c!\"format\", .bool false)]"}}, "232": {"cmd": "poweroff", "cls": "F18_Reboot.cls", "vs": [16000, 17000, 18000, 19000, 20000, 19100], "base": "", "bi": 0, "lines": ["--eject", "--kexec"], "ok": true, "kind": "P", "d": "[(c!\"action\", .int 2), (c!\"eject\", .bool false)]", "bsets": "[(c!\"action\", .int 2)]", "rows": {"--eject": "[(c!\"eject\", .bool true)]", "--kexec": "REFUSED"}}, "233": {"cmd": "raid", "cls": "F18_Raid.cls F18_RaidData.cls", "vs": [16000], "base": "/x --device=1 --level=RAID1 raid.1 raid.2", "bi": 0, "lines": ["--device=QX", "--fstype=QX", "--level=RAID0", "--level=0", "--level=RAID1", "--level=1", "--level=RAID5", "--level=5", "--level=RAID6", "--level=6", "--level=RAID10", "--level=10", "--noformat", "--spares=42", "--useexisting", "--fsoptions=QX", "--bytes-per-inode=QX", "--fsprofile=QX", "--encrypted", "--passphrase=QX", "--escrowcert=QX", "--backuppassphrase", "--level=RAID4", "--level=4", "--label=QX", "--cipher=QX", "--mkfsoptions=QX", "--chunksize=42", "--luks-version=QX", "--pbkdf=QX", "--pbkdf-memory=42", "--pbkdf-time=42", "--pbkdf-iterations=42", "--bytes-per-inode=42"], "ok": true, "kind": "L", "d": "[(c!\"lineno\", .int 7), (c!\"device\", .int 1), (c!\"fstype\", .str c!\"\"), (c!\"level\", .str c!\"RAID1\"), (c!\"format\", .bool true), (c!\"spares\", .int 0), (c!\"preexist\", .bool false), (c!\"mountpoint\", .str c!\"/x\"), (c!\"members\", .list [c!\"raid.1\", c!\"raid.2\"]), (c!\"fsopts\", .str c!\"\"), (c!\"fsprofile\", .str c!\"\"), (c!\"encrypted\", .bool false), (c!\"passphrase\", .str c!\"\"), (c!\"escrowcert\", .str c!\"\"), (c!\"backuppassphrase\", .bool false), (c!\"label\", .str c!\"\"), (c!\"cipher\", .str c!\"\"), (c!\"mntpoint\", .list [c!\"/x\"]), (c!\"partitions\", .list [c!\"raid.1\", c!\"raid.2\"])]", "bsets": "[]", "rows": {"--device=QX": "REFUSED", "--fstype=QX": "[(c!\"fstype\", .str c!\"QX\")]", "--level=RAID0": "[(c!\"level\", .str c!\"RAID0\")]", "--level=0": "[(c!\"level\", .str c!\"RAID0\")]", "--level=RAID1": "[]", "--level=1": "[]", "--level=RAID5": "[(c!\"level\", .str c!\"RAID5\")]", "--level=5": "[(c!\"level\", .str c!\"RAID5\")]", "--level=RAID6": "[(c!\"level\", .str c!\"RAID6\")]", "--level=6": "[(c!\"level\", .str c!\"RAID6\")]", "--level=RAID10": "[(c!\"level\", .str c!\"RAID10\")]", "--level=10": "[(c!\"level\", .str c!\"RAID10\")]", "--noformat": "REFUSED", "--spares=42": "[(c!\"spares\", .int 42)]", "--useexisting": "REFUSED", "--fsoptions=QX": "[(c!\"fsopts\", .str c!\"QX\")]", "--bytes-per-inode=QX": "REFUSED", "--fsprofile=QX": "[(c!\"fsprofile\", .str c!\"QX\")]", "--encrypted": "[(c!\"encrypted\", .bool true)]", "--passphrase=QX": "[(c!\"passphrase\", .str c!\"QX\")]", "--escrowcert=QX": "[(c!\"escrowcert\", .str c!\"QX\")]", "--backuppassphrase": "[(c!\"backuppassphrase\", .bool true)]", "--level=RAID4": "[(c!\"level\", .str c!\"RAID4\")]", "--level=4": "[(c!\"level\", .str c!\"RAID4\")]", "--label=QX": "[(c!\"label\", .str c!\"QX\")]", "--cipher=QX": "[(c!\"cipher\", .str c!\"QX\")]", "--mkfsoptions=QX": "REFUSED", "--chunksize=42": "REFUSED", "--luks-version=QX": "REFUSED", "--pbkdf=QX": "REFUSED", "--pbkdf-memory=42": "REFUSED", "--pbkdf-time=42": "REFUSED", "--pbkdf-iterations=42": "REFUSED", "--bytes-per-inode=42": "REFUSED"}}, "234": {"cmd": "raid", "cls": "F18_Raid.cls F18_RaidData.cls", "vs": [16000], "base": "/x --device=1 --noformat", "bi": 1, "lines": ["--fstype=ext4", "--label=QX"], "ok": true, "kind": "L", "d": "[(c!\"lineno\", .int 7), (c!\"device\", .int 1), (c!\"fstype\", .str c!\"\"), (c!\"level\", .str c!\"\"), (c!\"format\", .bool false), (c!\"spares\", .int 0), (c!\"preexist\", .bool true), (c!\"mountpoint\", .str c!\"/x\"), (c!\"members\", .list []), (c!\"fsopts\", .str c!\"\"), (c!\"fsprofile\", .str c!\"\"), (c!\"encrypted\", .bool false), (c!\"passphrase\", .str c!\"\"), (c!\"escrowcert\", .str c!\"\"), (c!\"backuppassphrase\", .bool false), (c!\"label\", .str c!\"\"), (c!\"cipher\", .str c!\"\"), (c!\"mntpoint\", .list [c!\"/x\"]), (c!\"partitions\", .list [])]", "bsets": "[]", "rows": {"--fstype=ext4": "[(c!\"fstype\", .str c!\"ext4\")]", "--label=QX": "[(c!\"label\", .str c!\"QX\")]"}}, "235": {"cmd": "raid", "cls": "F18_Raid.cls F18_RaidData.cls", "vs": [16000], "base": "/x --device=1 --useexisting", "bi": 2, "lines": ["--fstype=ext4", "--label=QX"], "ok": true, "kind": "L", "d": "[(c!\"lineno\", .int 7), (c!\"device\", .int 1), (c!\"fstype\", .str c!\"\"), (c!\"level\", .str c!\"\"), (c!\"format\", .bool true), (c!\"spares\", .int 0), (c!\"preexist\", .bool true), (c!\"mountpoint\", .str c!\"/x\"), (c!\"members\", .list []), (c!\"fsopts\", .str c!\"\"), (c!\"fsprofile\", .str c!\"\"), (c!\"encrypted\", .bool false), (c!\"passphrase\", .str c!\"\"), (c!\"escrowcert\", .str c!\"\"), (c!\"backuppassphrase\", .bool false), (c!\"label\", .str c!\"\"), (c!\"cipher\", .str c!\"\"), (c!\"mntpoint\", .list [c!\"/x\"]), (c!\"partitions\", .list [])]", "bsets": "[]", "rows": {"--fstype=ext4": "[(c!\"fstype\", .str c!\"ext4\")]", "--label=QX": "[(c!\"label\", .str c!\"QX\")]"}}, "236": {"cmd": "raid", "cls": "F18_Raid.cls F18_RaidData.cls", "vs": [16000], "base": "/x --device=1 --level=RAID1 raid.1 raid.2 raid.3", "bi": 3, "lines": ["--device=md7", "--device=data", "--level=0", "--level=RAID5", "--level=raid6", "--level=10", "--level=linear", "--spares=1", "--spares=2"], "ok": true, "kind": "L", "d": "[(c!\"lineno\", .int 7), (c!\"device\", .int 1), (c!\"fstype\", .str c!\"\"), (c!\"level\", .str c!\"RAID1\"), (c!\"format\", .bool true), (c!\"spares\", .int 0), (c!\"preexist\", .bool false), (c!\"mountpoint\", .str c!\"/x\"), (c!\"members\", .list [c!\"raid.1\", c!\"raid.2\", c!\"raid.3\"]), (c!\"fsopts\", .str c!\"\"), (c!\"fsprofile\", .str c!\"\"), (c!\"encrypted\", .bool false), (c!\"passphrase\", .str c!\"\"), (c!\"escrowcert\", .str c!\"\"), (c!\"backuppassphrase\", .bool false), (c!\"label\", .str c!\"\"), (c!\"cipher\", .str c!\"\"), (c!\"mntpoint\", .list [c!\"/x\"]), (c!\"partitions\", .list [c!\"raid.1\", c!\"raid.2\", c!\"raid.3\"])]", "bsets": "[]", "rows": {"--device=md7": "[(c!\"device\", .int 7)]", "--device=data": "REFUSED", "--level=0": "[(c!\"level\", .str c!\"RAID0\")]", "--level=RAID5": "[(c!\"level\", .str c!\"RAID5\")]", "--level=raid6": "[(c!\"level\", .str c!\"RAID6\")]", "--level=10": "[(c!\"level\", .str c!\"RAID10\")]", "--level=linear": "REFUSED", "--spares=1": "[(c!\"spares\", .int 1)]", "--spares=2": "[(c!\"spares\", .int 2)]"}}, "237": {"cmd": "reboot", "cls": "F18_Reboot.cls", "vs": [16000, 17000, 18000, 19000, 20000, 19100], "base": "", "bi": 0, "lines": ["--eject", "--kexec"], "ok": true, "kind": "P", "d": "[(c!\"action\", .int 1), (c!\"eject\", .bool false)]", "bsets": "[(c!\"action\", .int 1)]", "rows": {"--eject": "[(c!\"eject\", .bool true)]", "--kexec": "REFUSED"}}, "238": {"cmd": "rootpw", "cls": "F18_RootPw.cls", "vs": [16000, 17000, 18000, 19000, 20000, 21000, 22000, 23000, 24000, 25000, 26000, 27000, 30000, 31000, 32000, 33000, 34000, 19100, 26100], "base": "P", "bi": 0, "lines": ["--iscrypted", "--lock", "--plaintext"], "ok": true, "kind": "P", "d": "[(c!\"isCrypted\", .bool false), (c!\"password\", .str c!\"P\"), (c!\"lock\", .bool false)]", "bsets": "[(c!\"password\", .str c!\"P\")]", "rows": {"--iscrypted": "[(c!\"isCrypted\", .bool true)]", "--lock": "[(c!\"lock\", .bool true)]", "--plaintext": "[]"}}, "239": {"cmd": "rootpw", "cls": "F18_RootPw.cls", "vs": [16000, 17000, 18000, 19000, 20000, 21000, 22000, 23000, 24000, 25000, 26000, 27000, 30000, 31000, 32000, 33000, 34000, 19100, 26100], "base": "--lock", "bi": 1, "lines": ["--iscrypted", "--plaintext"], "ok": true, "kind": "P", "d": "[(c!\"isCrypted\", .bool false), (c!\"password\", .str c!\"\"), (c!\"lock\", .bool true)]", "bsets": "[(c!\"lock\", .bool true)]", "rows": {"--iscrypted": "[(c!\"isCrypted\", .bool true)]", "--plaintext": "[]"}}, "240": {"cmd": "shutdown", "cls": "F18_Reboot.cls", "vs": [16000, 17000, 18000, 19000, 20000, 19100], "base": "", "bi": 0, "lines": ["--eject", "--kexec"], "ok": true, "kind": "P", "d": "[(c!\"action\", .int 2), (c!\"eject\", .bool false)]", "bsets": "[(c!\"action\", .int 2)]", "rows": {"--eject": "[(c!\"eject\", .bool true)]", "--kexec": "REFUSED"}}, "241": {"cmd": "timezone", "cls": "F18_Timezone.cls", "vs": [16000, 17000, 18000, 19000, 20000], "base": "T", "bi": 0, "lines": ["--utc", "--isUtc", "--nontp", "--ntpservers=QX"], "ok": true, "kind": "P", "d": "[(c!\"isUtc\", .bool false), (c!\"timezone\", .str c!\"T\"), (c!\"nontp\", .bool false), (c!\"ntpservers\", .list [])]", "bsets": "[(c!\"timezone\", .str c!\"T\")]", "rows": {"--utc": "[(c!\"isUtc\", .bool true)]", "--isUtc": "[(c!\"isUtc\", .bool true)]", "--nontp": "[(c!\"nontp\", .bool true)]", "--ntpservers=QX": "[(c!\"ntpservers\", .list [c!\"QX\"])]"}}, "242": {"cmd": "timezone", "cls": "F18_Timezone.cls", "vs": [16000, 17000, 18000, 19000, 20000], "base": "--utc T", "bi": 1, "lines": ["--ntpservers=QX", "--nontp"], "ok": true, "kind": "P", "d": "[(c!\"isUtc\", .bool true), (c!\"timezone\", .str c!\"T\"), (c!\"nontp\", .bool false), (c!\"ntpservers\", .list [])]", "bsets": "[(c!\"isUtc\", .bool true), (c!\"timezone\", .str c!\"T\")]", "rows": {"--ntpservers=QX": "[(c!\"ntpservers\", .list [c!\"QX\"])]", "--nontp": "[(c!\"nontp\", .bool true)]"}}, "243": {"cmd": "url", "cls": "F18_Url.cls", "vs": [16000, 17000, 18000, 19000, 20000, 21000, 22000, 23000, 24000, 19100], "base": "--url=U", "bi": 0, "lines": ["--url=QX", "--proxy=QX", "--noverifyssl", "--mirrorlist=QX", "--metalink=QX", "--sslcacert=QX", "--sslclientcert=QX", "--sslclientkey=QX"], "ok": true, "kind": "P", "d": "[(c!\"url\", .str c!\"U\"), (c!\"proxy\", .str c!\"\"), (c!\"noverifyssl\", .bool false), (c!\"mirrorlist\", .none)]", "bsets": "[(c!\"url\", .str c!\"U\")]", "rows": {"--url=QX": "[(c!\"url\", .str c!\"QX\")]", "--proxy=QX": "[(c!\"proxy\", .str c!\"QX\")]", "--noverifyssl": "[(c!\"noverifyssl\", .bool true)]", "--mirrorlist=QX": "REFUSED", "--metalink=QX": "REFUSED", "--sslcacert=QX": "REFUSED", "--sslclientcert=QX": "REFUSED", "--sslclientkey=QX": "REFUSED"}}, "244": {"cmd": "url", "cls": "F18_Url.cls", "vs": [16000, 17000, 18000, 19000, 20000, 21000, 22000, 23000, 24000, 19100], "base": "--mirrorlist=M", "bi": 1, "lines": ["--proxy=QX", "--metalink=QX", "--url=QX"], "ok": true, "kind": "P", "d": "[(c!\"url\", .none), (c!\"proxy\", .str c!\"\"), (c!\"noverifyssl\", .bool false), (c!\"mirrorlist\", .str c!\"M\")]", "bsets": "[(c!\"mirrorlist\", .str c!\"M\")]", "rows": {"--proxy=QX": "[(c!\"proxy\", .str c!\"QX\")]", "--metalink=QX": "REFUSED", "--url=QX": "REFUSED"}}, "245": {"cmd": "url", "cls": "F18_Url.cls", "vs": [16000, 17000, 18000, 19000, 20000, 21000, 22000, 23000, 24000, 19100], "base": "--metalink=M", "bi": 2, "lines": ["--mirrorlist=QX"], "ok": false}, "246": {"cmd": "bootloader", "cls": "F19_Bootloader.cls", "vs": [17000, 18000], "base": "", "bi": 0, "lines": ["--append=QX", "--location=mbr", "--location=partition", "--location=none", "--location=boot", "--lba32", "--password=QX", "--md5pass=QX", "--upgrade", "--driveorder=QX", "--timeout=42", "--default=QX", "--iscrypted", "--boot-drive=QX", "--leavebootorder", "--extlinux", "--disabled", "--nombr", "--linear", "--nolinear", "--useLilo", "--hvargs=QX"], "ok": true, "kind": "P", "d": "[(c!\"driveorder\", .list []), (c!\"appendLine\", .str c!\"\"), (c!\"location\", .str c!\"mbr\"), (c!\"md5pass\", .str c!\"\"), (c!\"password\", .str c!\"\"), (c!\"upgrade\", .bool false), (c!\"timeout\", .none), (c!\"default\", .str c!\"\"), (c!\"isCrypted\", .bool false), (c!\"bootDrive\", .str c!\"\"), (c!\"leavebootorder\", .bool false), (c!\"extlinux\", .bool false)]", "bsets": "[(c!\"location\", .str c!\"mbr\")]", "rows": {"--append=QX": "[(c!\"appendLine\", .str c!\"QX\")]", "--location=mbr": "[]", "--location=partition": "[(c!\"location\", .str c!\"partition\")]", "--location=none": "[(c!\"location\", .str c!\"none\")]", "--location=boot": "[(c!\"location\", .str c!\"boot\")]", "--lba32": "REFUSED", "--password=QX": "[(c!\"password\", .str c!\"QX\")]", "--md5pass=QX": "[(c!\"password\", .str c!\"QX\"), (c!\"isCrypted\", .bool true)]", "--upgrade": "[(c!\"upgrade\", .bool true)]", "--driveorder=QX": "[(c!\"driveorder\", .list [c!\"QX\"])]", "--timeout=42": "[(c!\"timeout\", .int 42)]", "--default=QX": "[(c!\"default\", .str c!\"QX\")]", "--iscrypted": "[(c!\"isCrypted\", .bool true)]", "--boot-drive=QX": "[(c!\"bootDrive\", .str c!\"QX\")]", "--leavebootorder": "[(c!\"leavebootorder\", .bool true)]", "--extlinux": "[(c!\"extlinux\", .bool true)]", "--disabled": "REFUSED", "--nombr": "REFUSED", "--linear": "REFUSED", "--nolinear": "REFUSED", "--useLilo": "REFUSED", "--hvargs=QX": "REFUSED"}}, "247": {"cmd": "lang", "cls": "F19_Lang.cls", "vs": [17000, 18000, 19000, 20000, 21000, 22000, 23000, 24000, 25000, 26000, 27000, 30000, 31000, 32000, 33000, 34000, 19100, 26100], "base": "L", "bi": 0, "lines": ["--addsupport=QX"], "ok": true, "kind": "P", "d": "[(c!\"lang\", .str c!\"L\"), (c!\"addsupport\", .list [])]", "bsets": "[(c!\"lang\", .str c!\"L\")]", "rows": {"--addsupport=QX": "[(c!\"addsupport\", .list [c!\"QX\"])]"}}, "248": {"cmd": "liveimg", "cls": "F19_Liveimg.cls", "vs": [17000, 18000, 19000, 20000, 21000, 22000, 23000, 24000, 25000, 26000, 27000, 30000, 31000, 32000, 33000, 34000, 19100, 26100], "base": "--url=u", "bi": 0, "lines": ["--url=QX", "--proxy=QX", "--noverifyssl", "--checksum=QX"], "ok": true, "kind": "P", "d": "[(c!\"checksum\", .str c!\"\"), (c!\"noverifyssl\", .bool false), (c!\"proxy\", .none), (c!\"url\", .str c!\"u\")]", "bsets": "[(c!\"noverifyssl\", .bool false), (c!\"url\", .str c!\"u\")]", "rows": {"--url=QX": "[(c!\"url\", .str c!\"QX\")]", "--proxy=QX": "[(c!\"proxy\", .str c!\"QX\")]", "--noverifyssl": "[(c!\"noverifyssl\", .bool true)]", "--checksum=QX": "[(c!\"checksum\", .str c!\"QX\")]"}}, "249": {"cmd": "logvol", "cls": "F18_LogVol.cls F20_LogVolData.cls", "vs": [17000], "base": "/x --name=n --vgname=g --size=1", "bi": 0, "lines": ["--fstype=QX", "--grow", "--maxsize=42", "--name=QX", "--noformat", "--percent=42", "--recommended", "--size=42", "--useexisting", "--vgname=QX", "--fsoptions=QX", "--bytes-per-inode=QX", "--fsprofile=QX", "--encrypted", "--passphrase=QX", "--escrowcert=QX", "--backuppassphrase", "--label=QX", "--resize", "--hibernation", "--cipher=QX", "--thinpool", "--thin", "--poolname=QX", "--chunksize=42", "--metadatasize=42", "--profile=QX", "--cachesize=42", "--cachemode=QX", "--cachepvs=QX", "--mkfsoptions=QX", "--luks-version=QX", "--pbkdf=QX", "--pbkdf-memory=42", "--pbkdf-time=42", "--pbkdf-iterations=42", "--bytes-per-inode=42"], "ok": true, "kind": "L", "d": "[(c!\"lineno\", .int 7), (c!\"fstype\", .str c!\"\"), (c!\"grow\", .bool false), (c!\"maxSizeMB\", .int 0), (c!\"name\", .str c!\"n\"), (c!\"format\", .bool true), (c!\"percent\", .int 0), (c!\"recommended\", .bool false), (c!\"size\", .int 1), (c!\"preexist\", .bool false), (c!\"vgname\", .str c!\"g\"), (c!\"mountpoint\", .str c!\"/x\"), (c!\"fsopts\", .str c!\"\"), (c!\"fsprofile\", .str c!\"\"), (c!\"encrypted\", .bool false), (c!\"passphrase\", .str c!\"\"), (c!\"escrowcert\", .str c!\"\"), (c!\"backuppassphrase\", .bool false), (c!\"label\", .str c!\"\"), (c!\"resize\", .bool false), (c!\"hibernation\", .bool false), (c!\"cipher\", .str c!\"\"), (c!\"thin_pool\", .bool false), (c!\"thin_volume\", .bool false), (c!\"pool_name\", .str c!\"\"), (c!\"chunk_size\", .none), (c!\"metadata_size\", .none), (c!\"mntpoint\", .list [c!\"/x\"])]", "bsets": "[]", "rows": {"--fstype=QX": "[(c!\"fstype\", .str c!\"QX\")]", "--grow": "[(c!\"grow\", .bool true)]", "--maxsize=42": "[(c!\"maxSizeMB\", .int 42)]", "--name=QX": "[(c!\"name\", .str c!\"QX\")]", "--noformat": "[(c!\"format\", .bool false), (c!\"preexist\", .bool true)]", "--percent=42": "[(c!\"percent\", .int 42)]", "--recommended": "[(c!\"recommended\", .bool true)]", "--size=42": "[(c!\"size\", .int 42)]", "--useexisting": "[(c!\"preexist\", .bool true)]", "--vgname=QX": "[(c!\"vgname\", .str c!\"QX\")]", "--fsoptions=QX": "[(c!\"fsopts\", .str c!\"QX\")]", "--bytes-per-inode=QX": "REFUSED", "--fsprofile=QX": "[(c!\"fsprofile\", .str c!\"QX\")]", "--encrypted": "[(c!\"encrypted\", .bool true)]", "--passphrase=QX": "[(c!\"passphrase\", .str c!\"QX\")]", "--escrowcert=QX": "[(c!\"escrowcert\", .str c!\"QX\")]", "--backuppassphrase": "[(c!\"backuppassphrase\", .bool true)]", "--label=QX": "[(c!\"label\", .str c!\"QX\")]", "--resize": "REFUSED", "--hibernation": "[(c!\"hibernation\", .bool true)]", "--cipher=QX": "[(c!\"cipher\", .str c!\"QX\")]", "--thinpool": "REFUSED", "--thin": "REFUSED", "--poolname=QX": "REFUSED", "--chunksize=42": "REFUSED", "--metadatasize=42": "REFUSED", "--profile=QX": "REFUSED", "--cachesize=42": "REFUSED", "--cachemode=QX": "REFUSED", "--cachepvs=QX": "REFUSED", "--mkfsoptions=QX": "REFUSED", "--luks-version=QX": "REFUSED", "--pbkdf=QX": "REFUSED", "--pbkdf-memory=42": "REFUSED", "--pbkdf-time=42": "REFUSED", "--pbkdf-iterations=42": "REFUSED", "--bytes-per-inode=42": "REFUSED"}}, "250": {"cmd": "logvol", "cls": "F18_LogVol.cls F20_LogVolData.cls", "vs": [17000], "base": "/x --name=n --vgname=g --useexisting", "bi": 1, "lines": ["--size=42", "--resize", "--noformat", "--fstype=ext4"], "ok": true, "kind": "L", "d": "[(c!\"lineno\", .int 7), (c!\"fstype\", .str c!\"\"), (c!\"grow\", .bool false), (c!\"maxSizeMB\", .int 0), (c!\"name\", .str c!\"n\"), (c!\"format\", .bool true), (c!\"percent\", .int 0), (c!\"recommended\", .bool false), (c!\"size\", .none), (c!\"preexist\", .bool true), (c!\"vgname\", .str c!\"g\"), (c!\"mountpoint\", .str c!\"/x\"), (c!\"fsopts\", .str c!\"\"), (c!\"fsprofile\", .str c!\"\"), (c!\"encrypted\", .bool false), (c!\"passphrase\", .str c!\"\"), (c!\"escrowcert\", .str c!\"\"), (c!\"backuppassphrase\", .bool false), (c!\"label\", .str c!\"\"), (c!\"resize\", .bool false), (c!\"hibernation\", .bool false), (c!\"cipher\", .str c!\"\"), (c!\"thin_pool\", .bool false), (c!\"thin_volume\", .bool false), (c!\"pool_name\", .str c!\"\"), (c!\"chunk_size\", .none), (c!\"metadata_size\", .none), (c!\"mntpoint\", .list [c!\"/x\"])]", "bsets": "[]", "rows": {"--size=42": "[(c!\"size\", .int 42)]", "--resize": "REFUSED", "--noformat": "[(c!\"format\", .bool false)]", "--fstype=ext4": "[(c!\"fstype\", .str c!\"ext4\")]"}}, "251": {"cmd": "logvol", "cls": "F18_LogVol.cls F20_LogVolData.cls", "vs": [17000], "base": "/x --name=n --vgname=g", "bi": 2, "lines": ["--percent=42", "--useexisting", "--noformat"], "ok": true, "kind": "L", "d": "[(c!\"lineno\", .int 7), (c!\"fstype\", .str c!\"\"), (c!\"grow\", .bool false), (c!\"maxSizeMB\", .int 0), (c!\"name\", .str c!\"n\"), (c!\"format\", .bool true), (c!\"percent\", .int 0), (c!\"recommended\", .bool false), (c!\"size\", .none), (c!\"preexist\", .bool false), (c!\"vgname\", .str c!\"g\"), (c!\"mountpoint\", .str c!\"/x\"), (c!\"fsopts\", .str c!\"\"), (c!\"fsprofile\", .str c!\"\"), (c!\"encrypted\", .bool false), (c!\"passphrase\", .str c!\"\"), (c!\"escrowcert\", .str c!\"\"), (c!\"backuppassphrase\", .bool false), (c!\"label\", .str c!\"\"), (c!\"resize\", .bool false), (c!\"hibernation\", .bool false), (c!\"cipher\", .str c!\"\"), (c!\"thin_pool\", .bool false), (c!\"thin_volume\", .bool false), (c!\"pool_name\", .str c!\"\"), (c!\"chunk_size\", .none), (c!\"metadata_size\", .none), (c!\"mntpoint\", .list [c!\"/x\"])]", "bsets": "[]", "rows": {"--percent=42": "[(c!\"percent\", .int 42)]", "--useexisting": "[(c!\"preexist\", .bool true)]", "--noformat": "[(c!\"format\", .bool false), (c!\"preexist\", .bool true)]"}}, "252": {"cmd": "logvol", "cls": "F18_LogVol.cls F20_LogVolData.cls", "vs": [17000], "base": "/x --name=n --vgname=g --size=1 --poolname=p", "bi": 3, "lines": ["--thin", "--thinpool", "--label=QX"], "ok": false}, "253": {"cmd": "logvol", "cls": "F18_LogVol.cls F20_LogVolData.cls", "vs": [17000], "base": "none --name=n --vgname=g --size=1 --thinpool", "bi": 4, "lines": ["--chunksize=42", "--metadatasize=42", "--profile=QX", "--grow"], "ok": false}, "254": {"cmd": "logvol", "cls": "F18_LogVol.cls F20_LogVolData.cls", "vs": [17000], "base": "/x --name=n --vgname=g --size=1 --cachepvs=a --cachesize=5", "bi": 5, "lines": ["--cachemode=writeback", "--cachemode=writethrough"], "ok": false}, "255": {"cmd": "network", "cls": "F19_Network.cls F19_NetworkData.cls", "vs": [17000], "base": "", "bi": 0, "lines": ["--bootproto=dhcp", "--bootproto=bootp", "--bootproto=static", "--bootproto=query", "--dhcpclass=QX", "--device=QX", "--essid=QX", "--ethtool=QX", "--gateway=QX", "--hostname=QX", "--ip=QX", "--mtu=QX", "--nameserver=QX", "--netmask=QX", "--nodns", "--onboot=yes", "--onboot=off", "--wepkey=QX", "--notksdevice", "--noipv4", "--noipv6", "--ipv6=QX", "--bootproto=ibft", "--activate", "--nodefroute", "--wpakey=QX", "--bondslaves=QX", "--bondopts=QX", "--vlanid=QX", "--ipv6gateway=QX", "--teamslaves=QX", "--teamconfig=QX", "--interfacename=QX", "--bridgeslaves=QX", "--bridgeopts=QX", "--no-activate", "--bindto=mac"], "ok": true, "kind": "L", "d": "[(c!\"lineno\", .int 7), (c!\"bootProto\", .str c!\"dhcp\"), (c!\"dhcpclass\", .str c!\"\"), (c!\"device\", .str c!\"\"), (c!\"essid\", .str c!\"\"), (c!\"ethtool\", .str c!\"\"), (c!\"gateway\", .str c!\"\"), (c!\"hostname\", .str c!\"\"), (c!\"ip\", .str c!\"\"), (c!\"mtu\", .str c!\"\"), (c!\"nameserver\", .str c!\"\"), (c!\"netmask\", .str c!\"\"), (c!\"nodns\", .bool false), (c!\"onboot\", .bool true), (c!\"wepkey\", .str c!\"\"), (c!\"notksdevice\", .bool false), (c!\"noipv4\", .bool false), (c!\"noipv6\", .bool false), (c!\"ipv6\", .str c!\"\"), (c!\"activate\", .none), (c!\"nodefroute\", .bool false), (c!\"wpakey\", .str c!\"\"), (c!\"bondslaves\", .str c!\"\"), (c!\"bondopts\", .str c!\"\"), (c!\"vlanid\", .str c!\"\"), (c!\"ipv6gateway\", .str c!\"\")]", "bsets": "[]", "rows": {"--bootproto=dhcp": "[]", "--bootproto=bootp": "[(c!\"bootProto\", .str c!\"bootp\")]", "--bootproto=static": "[(c!\"bootProto\", .str c!\"static\")]", "--bootproto=query": "[(c!\"bootProto\", .str c!\"query\")]", "--dhcpclass=QX": "[(c!\"dhcpclass\", .str c!\"QX\")]", "--device=QX": "[(c!\"device\", .str c!\"QX\")]", "--essid=QX": "[(c!\"essid\", .str c!\"QX\")]", "--ethtool=QX": "[(c!\"ethtool\", .str c!\"QX\")]", "--gateway=QX": "[(c!\"gateway\", .str c!\"QX\")]", "--hostname=QX": "[(c!\"hostname\", .str c!\"QX\")]", "--ip=QX": "[(c!\"ip\", .str c!\"QX\")]", "--mtu=QX": "[(c!\"mtu\", .str c!\"QX\")]", "--nameserver=QX": "[(c!\"nameserver\", .str c!\"QX\")]", "--netmask=QX": "[(c!\"netmask\", .str c!\"QX\")]", "--nodns": "[(c!\"nodns\", .bool true)]", "--onboot=yes": "[]", "--onboot=off": "[(c!\"onboot\", .bool false)]", "--wepkey=QX": "[(c!\"wepkey\", .str c!\"QX\")]", "--notksdevice": "[(c!\"notksdevice\", .bool true)]", "--noipv4": "[(c!\"noipv4\", .bool true)]", "--noipv6": "[(c!\"noipv6\", .bool true)]", "--ipv6=QX": "[(c!\"ipv6\", .str c!\"QX\")]", "--bootproto=ibft": "[(c!\"bootProto\", .str c!\"ibft\")]", "--activate": "[(c!\"activate\", .bool true)]", "--nodefroute": "[(c!\"nodefroute\", .bool true)]", "--wpakey=QX": "[(c!\"wpakey\", .str c!\"QX\")]", "--bondslaves=QX": "[(c!\"bondslaves\", .str c!\"QX\")]", "--bondopts=QX": "[(c!\"bondopts\", .str c!\"QX\")]", "--vlanid=QX": "[(c!\"vlanid\", .str c!\"QX\")]", "--ipv6gateway=QX": "[(c!\"ipv6gateway\", .str c!\"QX\")]", "--teamslaves=QX": "REFUSED", "--teamconfig=QX": "REFUSED", "--interfacename=QX": "REFUSED", "--bridgeslaves=QX": "REFUSED", "--bridgeopts=QX": "REFUSED", "--no-activate": "REFUSED", "--bindto=mac": "REFUSED"}}, "256": {"cmd": "network", "cls": "F19_Network.cls F19_NetworkData.cls", "vs": [17000], "base": "--device=b --bridgeslaves=e", "bi": 1, "lines": ["--bridgeopts=stp=6", "--bridgeopts=stp", "--bridgeslaves=a,b"], "ok": false}, "257": {"cmd": "network", "cls": "F19_Network.cls F19_NetworkData.cls", "vs": [17000], "base": "--bootproto=static --ip=i", "bi": 2, "lines": ["--netmask=QX", "--gateway=QX"], "ok": true, "kind": "L", "d": "[(c!\"lineno\", .int 7), (c!\"bootProto\", .str c!\"static\"), (c!\"dhcpclass\", .str c!\"\"), (c!\"device\", .str c!\"\"), (c!\"essid\", .str c!\"\"), (c!\"ethtool\", .str c!\"\"), (c!\"gateway\", .str c!\"\"), (c!\"hostname\", .str c!\"\"), (c!\"ip\", .str c!\"i\"), (c!\"mtu\", .str c!\"\"), (c!\"nameserver\", .str c!\"\"), (c!\"netmask\", .str c!\"\"), (c!\"nodns\", .bool false), (c!\"onboot\", .bool true), (c!\"wepkey\", .str c!\"\"), (c!\"notksdevice\", .bool false), (c!\"noipv4\", .bool false), (c!\"noipv6\", .bool false), (c!\"ipv6\", .str c!\"\"), (c!\"activate\", .none), (c!\"nodefroute\", .bool false), (c!\"wpakey\", .str c!\"\"), (c!\"bondslaves\", .str c!\"\"), (c!\"bondopts\", .str c!\"\"), (c!\"vlanid\", .str c!\"\"), (c!\"ipv6gateway\", .str c!\"\")]", "bsets": "[]", "rows": {"--netmask=QX": "[(c!\"netmask\", .str c!\"QX\")]", "--gateway=QX": "[(c!\"gateway\", .str c!\"QX\")]"}}, "258": {"cmd": "network", "cls": "F19_Network.cls F19_NetworkData.cls", "vs": [17000], "base": "--device=t", "bi": 3, "lines": ["--teamslaves=a", "--bondslaves=a,b", "--vlanid=5"], "ok": true, "kind": "L", "d": "[(c!\"lineno\", .int 7), (c!\"bootProto\", .str c!\"dhcp\"), (c!\"dhcpclass\", .str c!\"\"), (c!\"device\", .str c!\"t\"), (c!\"essid\", .str c!\"\"), (c!\"ethtool\", .str c!\"\"), (c!\"gateway\", .str c!\"\"), (c!\"hostname\", .str c!\"\"), (c!\"ip\", .str c!\"\"), (c!\"mtu\", .str c!\"\"), (c!\"nameserver\", .str c!\"\"), (c!\"netmask\", .str c!\"\"), (c!\"nodns\", .bool false), (c!\"onboot\", .bool true), (c!\"wepkey\", .str c!\"\"), (c!\"notksdevice\", .bool false), (c!\"noipv4\", .bool false), (c!\"noipv6\", .bool false), (c!\"ipv6\", .str c!\"\"), (c!\"activate\", .none), (c!\"nodefroute\", .bool false), (c!\"wpakey\", .str c!\"\"), (c!\"bondslaves\", .str c!\"\"), (c!\"bondopts\", .str c!\"\"), (c!\"vlanid\", .str c!\"\"), (c!\"ipv6gateway\", .str c!\"\")]", "bsets": "[]", "rows": {"--teamslaves=a": "REFUSED", "--bondslaves=a,b": "[(c!\"bondslaves\", .str c!\"a,b\")]", "--vlanid=5": "[(c!\"vlanid\", .str c!\"5\")]"}}, "259": {"cmd": "raid", "cls": "F19_Raid.cls F18_RaidData.cls", "vs": [17000], "base": "/x --device=1 --level=RAID1 raid.1 raid.2", "bi": 0, "lines": ["--device=QX", "--fstype=QX", "--level=RAID0", "--level=0", "--level=RAID1", "--level=1", "--level=RAID5", "--level=5", "--level=RAID6", "--level=6", "--level=RAID10", "--level=10", "--noformat", "--spares=42", "--useexisting", "--fsoptions=QX", "--bytes-per-inode=QX", "--fsprofile=QX", "--encrypted", "--passphrase=QX", "--escrowcert=QX", "--backuppassphrase", "--level=RAID4", "--level=4", "--label=QX", "--cipher=QX", "--mkfsoptions=QX", "--chunksize=42", "--luks-version=QX", "--pbkdf=QX", "--pbkdf-memory=42", "--pbkdf-time=42", "--pbkdf-iterations=42", "--bytes-per-inode=42"], "ok": true, "kind": "L", "d": "[(c!\"lineno\", .int 7), (c!\"device\", .str c!\"1\"), (c!\"fstype\", .str c!\"\"), (c!\"level\", .str c!\"RAID1\"), (c!\"format\", .bool true), (c!\"spares\", .int 0), (c!\"preexist\", .bool false), (c!\"mountpoint\", .str c!\"/x\"), (c!\"members\", .list [c!\"raid.1\", c!\"raid.2\"]), (c!\"fsopts\", .str c!\"\"), (c!\"fsprofile\", .str c!\"\"), (c!\"encrypted\", .bool false), (c!\"passphrase\", .str c!\"\"), (c!\"escrowcert\", .str c!\"\"), (c!\"backuppassphrase\", .bool false), (c!\"label\", .str c!\"\"), (c!\"cipher\", .str c!\"\"), (c!\"mntpoint\", .list [c!\"/x\"]), (c!\"partitions\", .list [c!\"raid.1\", c!\"raid.2\"])]", "bsets": "[]", "rows": {"--device=QX": "[(c!\"device\", .str c!\"QX\")]", "--fstype=QX": "[(c!\"fstype\", .str c!\"QX\")]", "--level=RAID0": "[(c!\"level\", .str c!\"RAID0\")]", "--level=0": "[(c!\"level\", .str c!\"RAID0\")]", "--level=RAID1": "[]", "--level=1": "[]", "--level=RAID5": "[(c!\"level\", .str c!\"RAID5\")]", "--level=5": "[(c!\"level\", .str c!\"RAID5\")]", "--level=RAID6": "[(c!\"level\", .str c!\"RAID6\")]", "--level=6": "[(c!\"level\", .str c!\"RAID6\")]", "--level=RAID10": "[(c!\"level\", .str c!\"RAID10\")]", "--level=10": "[(c!\"level\", .str c!\"RAID10\")]", "--noformat": "REFUSED", "--spares=42": "[(c!\"spares\", .int 42)]", "--useexisting": "REFUSED", "--fsoptions=QX": "[(c!\"fsopts\", .str c!\"QX\")]", "--bytes-per-inode=QX": "REFUSED", "--fsprofile=QX": "[(c!\"fsprofile\", .str c!\"QX\")]", "--encrypted": "[(c!\"encrypted\", .bool true)]", "--passphrase=QX": "[(c!\"passphrase\", .str c!\"QX\")]", "--escrowcert=QX": "[(c!\"escrowcert\", .str c!\"QX\")]", "--backuppassphrase": "[(c!\"backuppassphrase\", .bool true)]", "--level=RAID4": "[(c!\"level\", .str c!\"RAID4\")]", "--level=4": "[(c!\"level\", .str c!\"RAID4\")]", "--label=QX": "[(c!\"label\", .str c!\"QX\")]", "--cipher=QX": "[(c!\"cipher\", .str c!\"QX\")]", "--mkfsoptions=QX": "REFUSED", "--chunksize=42": "REFUSED", "--luks-version=QX": "REFUSED", "--pbkdf=QX": "REFUSED", "--pbkdf-memory=42": "REFUSED", "--pbkdf-time=42": "REFUSED", "--pbkdf-iterations=42": "REFUSED", "--bytes-per-inode=42": "REFUSED"}}, "260": {"cmd": "raid", "cls": "F19_Raid.cls F18_RaidData.cls", "vs": [17000], "base": "/x --device=1 --noformat", "bi": 1, "lines": ["--fstype=ext4", "--label=QX"], "ok": true, "kind": "L", "d": "[(c!\"lineno\", .int 7), (c!\"device\", .str c!\"1\"), (c!\"fstype\", .str c!\"\"), (c!\"level\", .str c!\"\"), (c!\"format\", .bool false), (c!\"spares\", .int 0), (c!\"preexist\", .bool true), (c!\"mountpoint\", .str c!\"/x\"), (c!\"members\", .list []), (c!\"fsopts\", .str c!\"\"), (c!\"fsprofile\", .str c!\"\"), (c!\"encrypted\", .bool false), (c!\"passphrase\", .str c!\"\"), (c!\"escrowcert\", .str c!\"\"), (c!\"backuppassphrase\", .bool false), (c!\"label\", .str c!\"\"), (c!\"cipher\", .str c!\"\"), (c!\"mntpoint\", .list [c!\"/x\"]), (c!\"partitions\", .list [])]", "bsets": "[]", "rows": {"--fstype=ext4": "[(c!\"fstype\", .str c!\"ext4\")]", "--label=QX": "[(c!\"label\", .str c!\"QX\")]"}}, "261": {"cmd": "raid", "cls": "F19_Raid.cls F18_RaidData.cls", "vs": [17000], "base": "/x --device=1 --useexisting", "bi": 2, "lines": ["--fstype=ext4", "--label=QX"], "ok": true, "kind": "L", "d": "[(c!\"lineno\", .int 7), (c!\"device\", .str c!\"1\"), (c!\"fstype\", .str c!\"\"), (c!\"level\", .str c!\"\"), (c!\"format\", .bool true), (c!\"spares\", .int 0), (c!\"preexist\", .bool true), (c!\"mountpoint\", .str c!\"/x\"), (c!\"members\", .list []), (c!\"fsopts\", .str c!\"\"), (c!\"fsprofile\", .str c!\"\"), (c!\"encrypted\", .bool false), (c!\"passphrase\", .str c!\"\"), (c!\"escrowcert\", .str c!\"\"), (c!\"backuppassphrase\", .bool false), (c!\"label\", .str c!\"\"), (c!\"cipher\", .str c!\"\"), (c!\"mntpoint\", .list [c!\"/x\"]), (c!\"partitions\", .list [])]", "bsets": "[]", "rows": {"--fstype=ext4": "[(c!\"fstype\", .str c!\"ext4\")]", "--label=QX": "[(c!\"label\", .str c!\"QX\")]"}}, "262": {"cmd": "raid", "cls": "F19_Raid.cls F18_RaidData.cls", "vs": [17000], "base": "/x --device=1 --level=RAID1 raid.1 raid.2 raid.3", "bi": 3, "lines": ["--device=md7", "--device=data", "--level=0", "--level=RAID5", "--level=raid6", "--level=10", "--level=linear", "--spares=1", "--spares=2"], "ok": true, "kind": "L", "d": "[(c!\"lineno\", .int 7), (c!\"device\", .str c!\"1\"), (c!\"fstype\", .str c!\"\"), (c!\"level\", .str c!\"RAID1\"), (c!\"format\", .bool true), (c!\"spares\", .int 0), (c!\"preexist\", .bool false), (c!\"mountpoint\", .str c!\"/x\"), (c!\"members\", .list [c!\"raid.1\", c!\"raid.2\", c!\"raid.3\"]), (c!\"fsopts\", .str c!\"\"), (c!\"fsprofile\", .str c!\"\"), (c!\"encrypted\", .bool false), (c!\"passphrase\", .str c!\"\"), (c!\"escrowcert\", .str c!\"\"), (c!\"backuppassphrase\", .bool false), (c!\"label\", .str c!\"\"), (c!\"cipher\", .str c!\"\"), (c!\"mntpoint\", .list [c!\"/x\"]), (c!\"partitions\", .list [c!\"raid.1\", c!\"raid.2\", c!\"raid.3\"])]", "bsets": "[]", "rows": {"--device=md7": "[(c!\"device\", .str c!\"7\")]", "--device=data": "[(c!\"device\", .str c!\"data\")]", "--level=0": "[(c!\"level\", .str c!\"RAID0\")]", "--level=RAID5": "[(c!\"level\", .str c!\"RAID5\")]", "--level=raid6": "[(c!\"level\", .str c!\"RAID6\")]", "--level=10": "[(c!\"level\", .str c!\"RAID10\")]", "--level=linear": "REFUSED", "--spares=1": "[(c!\"spares\", .int 1)]", "--spares=2": "[(c!\"spares\", .int 2)]"}}, "263": {"cmd": "user", "cls": "F19_User.cls F19_UserData.cls", "vs": [17000, 18000, 19000, 20000, 21000, 19100], "base": "--name=u", "bi": 0, "lines": ["--groups=QX", "--homedir=QX", "--iscrypted", "--name=QX", "--password=QX", "--shell=QX", "--uid=42", "--lock", "--plaintext", "--gecos=QX", "--gid=42"], "ok": true, "kind": "L", "d": "[(c!\"lineno\", .int 7), (c!\"groups\", .list []), (c!\"homedir\", .str c!\"\"), (c!\"isCrypted\", .bool false), (c!\"name\", .str c!\"u\"), (c!\"password\", .str c!\"\"), (c!\"shell\", .str c!\"\"), (c!\"uid\", .none), (c!\"lock\", .bool false), (c!\"gecos\", .str c!\"\"), (c!\"gid\", .none)]", "bsets": "[]", "rows": {"--groups=QX": "[(c!\"groups\", .list [c!\"QX\"])]", "--homedir=QX": "[(c!\"homedir\", .str c!\"QX\")]", "--iscrypted": "[(c!\"isCrypted\", .bool true)]", "--name=QX": "[(c!\"name\", .str c!\"QX\")]", "--password=QX": "[(c!\"password\", .str c!\"QX\")]", "--shell=QX": "[(c!\"shell\", .str c!\"QX\")]", "--uid=42": "[(c!\"uid\", .int 42)]", "--lock": "[(c!\"lock\", .bool true)]", "--plaintext": "[]", "--gecos=QX": "[(c!\"gecos\", .str c!\"QX\")]", "--gid=42": "[(c!\"gid\", .int 42)]"}}, "264": {"cmd": "autopart", "cls": "F20_AutoPart.cls", "vs": [18000], "base": "", "bi": 0, "lines": ["--encrypted", "--passphrase=QX", "--escrowcert=QX", "--backuppassphrase", "--nolvm", "--type=lvm", "--type=btrfs", "--type=plain", "--type=partition", "--cipher=QX", "--type=thinp", "--fstype=QX", "--nohome", "--noboot", "--noswap", "--luks-version=QX", "--pbkdf=QX", "--pbkdf-memory=42", "--pbkdf-time=42", "--pbkdf-iterations=42"], "ok": true, "kind": "P", "d": "[(c!\"autopart\", .bool true), (c!\"encrypted\", .bool false), (c!\"passphrase\", .str c!\"\"), (c!\"escrowcert\", .str c!\"\"), (c!\"backuppassphrase\", .bool false), (c!\"lvm\", .bool true), (c!\"type\", .none), (c!\"cipher\", .str c!\"\")]", "bsets": "[(c!\"autopart\", .bool true)]", "rows": {"--encrypted": "[(c!\"encrypted\", .bool true)]", "--passphrase=QX": "[(c!\"passphrase\", .str c!\"QX\")]", "--escrowcert=QX": "[(c!\"escrowcert\", .str c!\"QX\")]", "--backuppassphrase": "[(c!\"backuppassphrase\", .bool true)]", "--nolvm": "[(c!\"type\", .int 0)]", "--type=lvm": "[(c!\"type\", .int 2)]", "--type=btrfs": "[(c!\"type\", .int 1)]", "--type=plain": "[(c!\"type\", .int 0)]", "--type=partition": "[(c!\"type\", .int 0)]", "--cipher=QX": "[(c!\"cipher\", .str c!\"QX\")]", "--type=thinp": "[(c!\"type\", .int 3)]", "--fstype=QX": "REFUSED", "--nohome": "REFUSED", "--noboot": "REFUSED", "--noswap": "REFUSED", "--luks-version=QX": "REFUSED", "--pbkdf=QX": "REFUSED", "--pbkdf-memory=42": "REFUSED", "--pbkdf-time=42": "REFUSED", "--pbkdf-iterations=42": "REFUSED"}}, "265": {"cmd": "eula", "cls": "F20_Eula.cls", "vs": [18000, 19000, 20000, 21000, 22000, 23000, 24000, 25000, 26000, 27000, 30000, 31000, 32000, 33000, 34000, 19100, 26100], "base": "--agreed", "bi": 0, "lines": ["--accepted", "--accept", "--agree"], "ok": true, "kind": "P", "d": "[(c!\"agreed\", .bool true)]", "bsets": "[(c!\"agreed\", .bool true)]", "rows": {"--accepted": "[]", "--accept": "[]", "--agree": "[]"}}, "266": {"cmd": "firewall", "cls": "F20_Firewall.cls", "vs": [18000, 19000, 20000, 21000, 22000, 23000, 24000, 25000, 19100], "base": "", "bi": 0, "lines": ["--disable", "--disabled", "--enable", "--enabled", "--port=QX:tcp", "--trust=QX", "--service=QX", "--ftp", "--http", "--smtp", "--ssh", "--telnet=QX", "--remove-service=QX", "--use-system-defaults", "--telnet", "--high=QX", "--medium=QX"], "ok": true, "kind": "P", "d": "[(c!\"enabled\", .bool true), (c!\"ports\", .list []), (c!\"trusts\", .list []), (c!\"services\", .list []), (c!\"remove_services\", .list [])]", "bsets": "[(c!\"enabled\", .bool true)]", "rows": {"--disable": "[(c!\"enabled\", .bool false)]", "--disabled": "[(c!\"enabled\", .bool false)]", "--enable": "[]", "--enabled": "[]", "--port=QX:tcp": "[(c!\"ports\", .list [c!\"QX:tcp\"])]", "--trust=QX": "[(c!\"trusts\", .list [c!\"QX\"])]", "--service=QX": "[(c!\"services\", .list [c!\"QX\"])]", "--ftp": "[(c!\"services\", .list [c!\"ftp\"])]", "--http": "[(c!\"services\", .list [c!\"http\"])]", "--smtp": "[(c!\"services\", .list [c!\"smtp\"])]", "--ssh": "[(c!\"services\", .list [c!\"ssh\"])]", "--telnet=QX": "REFUSED", "--remove-service=QX": "[(c!\"remove_services\", .list [c!\"QX\"])]", "--use-system-defaults": "REFUSED", "--telnet": "REFUSED", "--high=QX": "REFUSED", "--medium=QX": "REFUSED"}}, "267": {"cmd": "install", "cls": "F20_Install.cls", "vs": [18000, 19000, 20000, 21000, 22000, 23000, 24000, 25000, 26000], "base": "", "bi": 0, "lines": ["--root-device=QX"], "ok": true, "kind": "P", "d": "[(c!\"upgrade\", .bool false), (c!\"root_device\", .none)]", "bsets": "[(c!\"upgrade\", .bool false)]", "rows": {"--root-device=QX": "[(c!\"root_device\", .str c!\"QX\")]"}}, "268": {"cmd": "logvol", "cls": "F20_LogVol.cls F20_LogVolData.cls", "vs": [18000], "base": "/x --name=n --vgname=g --size=1", "bi": 0, "lines": ["--fstype=QX", "--grow", "--maxsize=42", "--name=QX", "--noformat", "--percent=42", "--recommended", "--size=42", "--useexisting", "--vgname=QX", "--fsoptions=QX", "--bytes-per-inode=QX", "--fsprofile=QX", "--encrypted", "--passphrase=QX", "--escrowcert=QX", "--backuppassphrase", "--label=QX", "--resize", "--hibernation", "--cipher=QX", "--thinpool", "--thin", "--poolname=QX", "--chunksize=42", "--metadatasize=42", "--profile=QX", "--cachesize=42", "--cachemode=QX", "--cachepvs=QX", "--mkfsoptions=QX", "--luks-version=QX", "--pbkdf=QX", "--pbkdf-memory=42", "--pbkdf-time=42", "--pbkdf-iterations=42", "--bytes-per-inode=42"], "ok": true, "kind": "L", "d": "[(c!\"lineno\", .int 7), (c!\"fstype\", .str c!\"\"), (c!\"grow\", .bool false), (c!\"maxSizeMB\", .int 0), (c!\"name\", .str c!\"n\"), (c!\"format\", .bool true), (c!\"percent\", .int 0), (c!\"recommended\", .bool false), (c!\"size\", .int 1), (c!\"preexist\", .bool false), (c!\"vgname\", .str c!\"g\"), (c!\"mountpoint\", .str c!\"/x\"), (c!\"fsopts\", .str c!\"\"), (c!\"fsprofile\", .str c!\"\"), (c!\"encrypted\", .bool false), (c!\"passphrase\", .str c!\"\"), (c!\"escrowcert\", .str c!\"\"), (c!\"backuppassphrase\", .bool false), (c!\"label\", .str c!\"\"), (c!\"resize\", .bool false), (c!\"hibernation\", .bool false), (c!\"cipher\", .str c!\"\"), (c!\"thin_pool\", .bool false), (c!\"thin_volume\", .bool false), (c!\"pool_name\", .str c!\"\"), (c!\"chunk_size\", .none), (c!\"metadata_size\", .none), (c!\"mntpoint\", .list [c!\"/x\"])]", "bsets": "[]", "rows": {"--fstype=QX": "[(c!\"fstype\", .str c!\"QX\")]", "--grow": "[(c!\"grow\", .bool true)]", "--maxsize=42": "[(c!\"maxSizeMB\", .int 42)]", "--name=QX": "[(c!\"name\", .str c!\"QX\")]", "--noformat": "[(c!\"format\", .bool false), (c!\"preexist\", .bool true)]", "--percent=42": "[(c!\"percent\", .int 42)]", "--recommended": "[(c!\"recommended\", .bool true)]", "--size=42": "[(c!\"size\", .int 42)]", "--useexisting": "[(c!\"preexist\", .bool true)]", "--vgname=QX": "[(c!\"vgname\", .str c!\"QX\")]", "--fsoptions=QX": "[(c!\"fsopts\", .str c!\"QX\")]", "--bytes-per-inode=QX": "REFUSED", "--fsprofile=QX": "[(c!\"fsprofile\", .str c!\"QX\")]", "--encrypted": "[(c!\"encrypted\", .bool true)]", "--passphrase=QX": "[(c!\"passphrase\", .str c!\"QX\")]", "--escrowcert=QX": "[(c!\"escrowcert\", .str c!\"QX\")]", "--backuppassphrase": "[(c!\"backuppassphrase\", .bool true)]", "--label=QX": "[(c!\"label\", .str c!\"QX\")]", "--resize": "REFUSED", "--hibernation": "[(c!\"hibernation\", .bool true)]", "--cipher=QX": "[(c!\"cipher\", .str c!\"QX\")]", "--thinpool": "[(c!\"thin_pool\", .bool true)]", "--thin": "REFUSED", "--poolname=QX": "[(c!\"pool_name\", .str c!\"QX\")]", "--chunksize=42": "REFUSED", "--metadatasize=42": "REFUSED", "--profile=QX": "REFUSED", "--cachesize=42": "REFUSED", "--cachemode=QX": "REFUSED", "--cachepvs=QX": "REFUSED", "--mkfsoptions=QX": "REFUSED", "--luks-version=QX": "REFUSED", "--pbkdf=QX": "REFUSED", "--pbkdf-memory=42": "REFUSED", "--pbkdf-time=42": "REFUSED", "--pbkdf-iterations=42": "REFUSED", "--bytes-per-inode=42": "REFUSED"}}, "269": {"cmd": "logvol", "cls": "F20_LogVol.cls F20_LogVolData.cls", "vs": [18000], "base": "/x --name=n --vgname=g --useexisting", "bi": 1, "lines": ["--size=42", "--resize", "--noformat", "--fstype=ext4"], "ok": true, "kind": "L", "d": "[(c!\"lineno\", .int 7), (c!\"fstype\", .str c!\"\"), (c!\"grow\", .bool false), (c!\"maxSizeMB\", .int 0), (c!\"name\", .str c!\"n\"), (c!\"format\", .bool true), (c!\"percent\", .int 0), (c!\"recommended\", .bool false), (c!\"size\", .none), (c!\"preexist\", .bool true), (c!\"vgname\", .str c!\"g\"), (c!\"mountpoint\", .str c!\"/x\"), (c!\"fsopts\", .str c!\"\"), (c!\"fsprofile\", .str c!\"\"), (c!\"encrypted\", .bool false), (c!\"passphrase\", .str c!\"\"), (c!\"escrowcert\", .str c!\"\"), (c!\"backuppassphrase\", .bool false), (c!\"label\", .str c!\"\"), (c!\"resize\", .bool false), (c!\"hibernation\", .bool false), (c!\"cipher\", .str c!\"\"), (c!\"thin_pool\", .bool false), (c!\"thin_volume\", .bool false), (c!\"pool_name\", .str c!\"\"), (c!\"chunk_size\", .none), (c!\"metadata_size\", .none), (c!\"mntpoint\", .list [c!\"/x\"])]", "bsets": "[]", "rows": {"--size=42": "[(c!\"size\", .int 42)]", "--resize": "REFUSED", "--noformat": "[(c!\"format\", .bool false)]", "--fstype=ext4": "[(c!\"fstype\", .str c!\"ext4\")]"}}, "270": {"cmd": "logvol", "cls": "F20_LogVol.cls F20_LogVolData.cls", "vs": [18000], "base": "/x --name=n --vgname=g", "bi": 2, "lines": ["--percent=42", "--useexisting", "--noformat"], "ok": false}, "271": {"cmd": "logvol", "cls": "F20_LogVol.cls F20_LogVolData.cls", "vs": [18000], "base": "/x --name=n --vgname=g --size=1 --poolname=p", "bi": 3, "lines": ["--thin", "--thinpool", "--label=QX"], "ok": true, "kind": "L", "d": "[(c!\"lineno\", .int 7), (c!\"fstype\", .str c!\"\"), (c!\"grow\", .bool false), (c!\"maxSizeMB\", .int 0), (c!\"name\", .str c!\"n\"), (c!\"format\", .bool true), (c!\"percent\", .int 0), (c!\"recommended\", .bool false), (c!\"size\", .int 1), (c!\"preexist\", .bool false), (c!\"vgname\", .str c!\"g\"), (c!\"mountpoint\", .str c!\"/x\"), (c!\"fsopts\", .str c!\"\"), (c!\"fsprofile\", .str c!\"\"), (c!\"encrypted\", .bool false), (c!\"passphrase\", .str c!\"\"), (c!\"escrowcert\", .str c!\"\"), (c!\"backuppassphrase\", .bool false), (c!\"label\", .str c!\"\"), (c!\"resize\", .bool false), (c!\"hibernation\", .bool false), (c!\"cipher\", .str c!\"\"), (c!\"thin_pool\", .bool false), (c!\"thin_volume\", .bool false), (c!\"pool_name\", .str c!\"p\"), (c!\"chunk_size\", .none), (c!\"metadata_size\", .none), (c!\"mntpoint\", .list [c!\"/x\"])]", "bsets": "[]", "rows": {"--thin": "[(c!\"thin_volume\", .bool true)]", "--thinpool": "[(c!\"thin_pool\", .bool true)]", "--label=QX": "[(c!\"label\", .str c!\"QX\")]"}}, "272": {"cmd": "logvol", "cls": "F20_LogVol.cls F20_LogVolData.cls", "vs": [18000], "base": "none --name=n --vgname=g --size=1 --thinpool", "bi": 4, "lines": ["--chunksize=42", "--metadatasize=42", "--profile=QX", "--grow"], "ok": true, "kind": "L", "d": "[(c!\"lineno\", .int 7), (c!\"fstype\", .str c!\"\"), (c!\"grow\", .bool false), (c!\"maxSizeMB\", .int 0), (c!\"name\", .str c!\"n\"), (c!\"format\", .bool true), (c!\"percent\", .int 0), (c!\"recommended\", .bool false), (c!\"size\", .int 1), (c!\"preexist\", .bool false), (c!\"vgname\", .str c!\"g\"), (c!\"mountpoint\", .str c!\"none\"), (c!\"fsopts\", .str c!\"\"), (c!\"fsprofile\", .str c!\"\"), (c!\"encrypted\", .bool false), (c!\"passphrase\", .str c!\"\"), (c!\"escrowcert\", .str c!\"\"), (c!\"backuppassphrase\", .bool false), (c!\"label\", .str c!\"\"), (c!\"resize\", .bool false), (c!\"hibernation\", .bool false), (c!\"cipher\", .str c!\"\"), (c!\"thin_pool\", .bool true), (c!\"thin_volume\", .bool false), (c!\"pool_name\", .str c!\"\"), (c!\"chunk_size\", .none), (c!\"metadata_size\", .none), (c!\"mntpoint\", .list [c!\"none\"])]", "bsets": "[]", "rows": {"--chunksize=42": "[(c!\"chunk_size\", .int 42)]", "--metadatasize=42": "[(c!\"metadata_size\", .int 42)]", "--profile=QX": "REFUSED", "--grow": "[(c!\"grow\", .bool true)]"}}, "273": {"cmd": "logvol", "cls": "F20_LogVol.cls F20_LogVolData.cls", "vs": [18000], "base": "/x --name=n --vgname=g --size=1 --cachepvs=a --cachesize=5", "bi": 5, "lines": ["--cachemode=writeback", "--cachemode=writethrough"], "ok": false}, "274": {"cmd": "network", "cls": "F20_Network.cls F20_NetworkData.cls", "vs": [18000], "base": "", "bi": 0, "lines": ["--bootproto=dhcp", "--bootproto=bootp", "--bootproto=static", "--bootproto=query", "--dhcpclass=QX", "--device=QX", "--essid=QX", "--ethtool=QX", "--gateway=QX", "--hostname=QX", "--ip=QX", "--mtu=QX", "--nameserver=QX", "--netmask=QX", "--nodns", "--onboot=yes", "--onboot=off", "--wepkey=QX", "--notksdevice", "--noipv4", "--noipv6", "--ipv6=QX", "--bootproto=ibft", "--activate", "--nodefroute", "--wpakey=QX", "--bondslaves=QX", "--bondopts=QX", "--vlanid=QX", "--ipv6gateway=QX", "--teamslaves=QX", "--teamconfig=QX", "--interfacename=QX", "--bridgeslaves=QX", "--bridgeopts=QX", "--no-activate", "--bindto=mac"], "ok": true, "kind": "L", "d": "[(c!\"lineno\", .int 7), (c!\"bootProto\", .str c!\"dhcp\"), (c!\"dhcpclass\", .str c!\"\"), (c!\"device\", .str c!\"\"), (c!\"essid\", .str c!\"\"), (c!\"ethtool\", .str c!\"\"), (c!\"gateway\", .str c!\"\"), (c!\"hostname\", .str c!\"\"), (c!\"ip\", .str c!\"\"), (c!\"mtu\", .str c!\"\"), (c!\"nameserver\", .str c!\"\"), (c!\"netmask\", .str c!\"\"), (c!\"nodns\", .bool false), (c!\"onboot\", .bool true), (c!\"wepkey\", .str c!\"\"), (c!\"notksdevice\", .bool false), (c!\"noipv4\", .bool false), (c!\"noipv6\", .bool false), (c!\"ipv6\", .str c!\"\"), (c!\"activate\", .none), (c!\"nodefroute\", .bool false), (c!\"wpakey\", .str c!\"\"), (c!\"bondslaves\", .str c!\"\"), (c!\"bondopts\", .str c!\"\"), (c!\"vlanid\", .str c!\"\"), (c!\"ipv6gateway\", .str c!\"\"), (c!\"teamslaves\", .list []), (c!\"teamconfig\", .str c!\"\")]", "bsets": "[]", "rows": {"--bootproto=dhcp": "[]", "--bootproto=bootp": "[(c!\"bootProto\", .str c!\"bootp\")]", "--bootproto=static": "[(c!\"bootProto\", .str c!\"static\")]", "--bootproto=query": "[(c!\"bootProto\", .str c!\"query\")]", "--dhcpclass=QX": "[(c!\"dhcpclass\", .str c!\"QX\")]", "--device=QX": "[(c!\"device\", .str c!\"QX\")]", "--essid=QX": "[(c!\"essid\", .str c!\"QX\")]", "--ethtool=QX": "[(c!\"ethtool\", .str c!\"QX\")]", "--gateway=QX": "[(c!\"gateway\", .str c!\"QX\")]", "--hostname=QX": "[(c!\"hostname\", .str c!\"QX\")]", "--ip=QX": "[(c!\"ip\", .str c!\"QX\")]", "--mtu=QX": "[(c!\"mtu\", .str c!\"QX\")]", "--nameserver=QX": "[(c!\"nameserver\", .str c!\"QX\")]", "--netmask=QX": "[(c!\"netmask\", .str c!\"QX\")]", "--nodns": "[(c!\"nodns\", .bool true)]", "--onboot=yes": "[]", "--onboot=off": "[(c!\"onboot\", .bool false)]", "--wepkey=QX": "[(c!\"wepkey\", .str c!\"QX\")]", "--notksdevice": "[(c!\"notksdevice\", .bool true)]", "--noipv4": "[(c!\"noipv4\", .bool true)]", "--noipv6": "[(c!\"noipv6\", .bool true)]", "--ipv6=QX": "[(c!\"ipv6\", .str c!\"QX\")]", "--bootproto=ibft": "[(c!\"bootProto\", .str c!\"ibft\")]", "--activate": "[(c!\"activate\", .bool true)]", "--nodefroute": "[(c!\"nodefroute\", .bool true)]", "--wpakey=QX": "[(c!\"wpakey\", .str c!\"QX\")]", "--bondslaves=QX": "[(c!\"bondslaves\", .str c!\"QX\")]", "--bondopts=QX": "[(c!\"bondopts\", .str c!\"QX\")]", "--vlanid=QX": "[(c!\"vlanid\", .str c!\"QX\")]", "--ipv6gateway=QX": "[(c!\"ipv6gateway\", .str c!\"QX\")]", "--teamslaves=QX": "[(c!\"teamslaves\", .pairs [(c!\"QX\", c!\"\")])]", "--teamconfig=QX": "[(c!\"teamconfig\", .str c!\"QX\")]", "--interfacename=QX": "REFUSED", "--bridgeslaves=QX": "REFUSED", "--bridgeopts=QX": "REFUSED", "--no-activate": "REFUSED", "--bindto=mac": "REFUSED"}}, "275": {"cmd": "network", "cls": "F20_Network.cls F20_NetworkData.cls", "vs": [18000], "base": "--device=b --bridgeslaves=e", "bi": 1, "lines": ["--bridgeopts=stp=6", "--bridgeopts=stp", "--bridgeslaves=a,b"], "ok": false}, "276": {"cmd": "network", "cls": "F20_Network.cls F20_NetworkData.cls", "vs": [18000], "base": "--bootproto=static --ip=i", "bi": 2, "lines": ["--netmask=QX", "--gateway=QX"], "ok": true, "kind": "L", "d": "[(c!\"lineno\", .int 7), (c!\"bootProto\", .str c!\"static\"), (c!\"dhcpclass\", .str c!\"\"), (c!\"device\", .str c!\"\"), (c!\"essid\", .str c!\"\"), (c!\"ethtool\", .str c!\"\"), (c!\"gateway\", .str c!\"\"), (c!\"hostname\", .str c!\"\"), (c!\"ip\", .str c!\"i\"), (c!\"mtu\", .str c!\"\"), (c!\"nameserver\", .str c!\"\"), (c!\"netmask\", .str c!\"\"), (c!\"nodns\", .bool false), (c!\"onboot\", .bool true), (c!\"wepkey\", .str c!\"\"), (c!\"notksdevice\", .bool false), (c!\"noipv4\", .bool false), (c!\"noipv6\", .bool false), (c!\"ipv6\", .str c!\"\"), (c!\"activate\", .none), (c!\"nodefroute\", .bool false), (c!\"wpakey\", .str c!\"\"), (c!\"bondslaves\", .str c!\"\"), (c!\"bondopts\", .str c!\"\"), (c!\"vlanid\", .str c!\"\"), (c!\"ipv6gateway\", .str c!\"\"), (c!\"teamslaves\", .list []), (c!\"teamconfig\", .str c!\"\")]", "bsets": "[]", "rows": {"--netmask=QX": "[(c!\"netmask\", .str c!\"QX\")]", "--gateway=QX": "[(c!\"gateway\", .str c!\"QX\")]"}}, "277": {"cmd": "network", "cls": "F20_Network.cls F20_NetworkData.cls", "vs": [18000], "base": "--device=t", "bi": 3, "lines": ["--teamslaves=a", "--bondslaves=a,b", "--vlanid=5"], "ok": true, "kind": "L", "d": "[(c!\"lineno\", .int 7), (c!\"bootProto\", .str c!\"dhcp\"), (c!\"dhcpclass\", .str c!\"\"), (c!\"device\", .str c!\"t\"), (c!\"essid\", .str c!\"\"), (c!\"ethtool\", .str c!\"\"), (c!\"gateway\", .str c!\"\"), (c!\"hostname\", .str c!\"\"), (c!\"ip\", .str c!\"\"), (c!\"mtu\", .str c!\"\"), (c!\"nameserver\", .str c!\"\"), (c!\"netmask\", .str c!\"\"), (c!\"nodns\", .bool false), (c!\"onboot\", .bool true), (c!\"wepkey\", .str c!\"\"), (c!\"notksdevice\", .bool false), (c!\"noipv4\", .bool false), (c!\"noipv6\", .bool false), (c!\"ipv6\", .str c!\"\"), (c!\"activate\", .none), (c!\"nodefroute\", .bool false), (c!\"wpakey\", .str c!\"\"), (c!\"bondslaves\", .str c!\"\"), (c!\"bondopts\", .str c!\"\"), (c!\"vlanid\", .str c!\"\"), (c!\"ipv6gateway\", .str c!\"\"), (c!\"teamslaves\", .list []), (c!\"teamconfig\", .str c!\"\")]", "bsets": "[]", "rows": {"--teamslaves=a": "[(c!\"teamslaves\", .pairs [(c!\"a\", c!\"\")])]", "--bondslaves=a,b": "[(c!\"bondslaves\", .str c!\"a,b\")]", "--vlanid=5": "[(c!\"vlanid\", .str c!\"5\")]"}}, "278": {"cmd": "part", "cls": "F20_Partition.cls F18_PartData.cls", "vs": [18000, 19000, 20000], "base": "/x --size=1", "bi": 0, "lines": ["--active", "--asprimary", "--start=42", "--end=42", "--fstype=QX", "--type=QX", "--grow", "--maxsize=42", "--noformat", "--onbiosdisk=QX", "--ondisk=QX", "--ondrive=QX", "--onpart=QX", "--usepart=QX", "--recommended", "--size=42", "--fsoptions=QX", "--label=QX", "--bytes-per-inode=QX", "--fsprofile=QX", "--encrypted", "--passphrase=QX", "--start=QX", "--end=QX", "--escrowcert=QX", "--backuppassphrase", "--resize", "--hibernation", "--cipher=QX", "--mkfsoptions=QX", "--luks-version=QX", "--pbkdf=QX", "--pbkdf-memory=42", "--pbkdf-time=42", "--pbkdf-iterations=42", "--bytes-per-inode=42"], "ok": true, "kind": "L", "d": "[(c!\"lineno\", .int 7), (c!\"active\", .bool false), (c!\"primOnly\", .bool false), (c!\"fstype\", .str c!\"\"), (c!\"grow\", .bool false), (c!\"maxSizeMB\", .int 0), (c!\"format\", .bool true), (c!\"onbiosdisk\", .str c!\"\"), (c!\"disk\", .str c!\"\"), (c!\"onPart\", .str c!\"\"), (c!\"recommended\", .bool false), (c!\"size\", .int 1), (c!\"mountpoint\", .str c!\"/x\"), (c!\"fsopts\", .str c!\"\"), (c!\"label\", .str c!\"\"), (c!\"fsprofile\", .str c!\"\"), (c!\"encrypted\", .bool false), (c!\"passphrase\", .str c!\"\"), (c!\"escrowcert\", .str c!\"\"), (c!\"backuppassphrase\", .bool false), (c!\"resize\", .bool false), (c!\"hibernation\", .bool false), (c!\"cipher\", .str c!\"\"), (c!\"mntpoint\", .list [c!\"/x\"])]", "bsets": "[]", "rows": {"--active": "[(c!\"active\", .bool true)]", "--asprimary": "[(c!\"primOnly\", .bool true)]", "--start=42": "REFUSED", "--end=42": "REFUSED", "--fstype=QX": "[(c!\"fstype\", .str c!\"QX\")]", "--type=QX": "[(c!\"fstype\", .str c!\"QX\")]", "--grow": "[(c!\"grow\", .bool true)]", "--maxsize=42": "[(c!\"maxSizeMB\", .int 42)]", "--noformat": "[(c!\"format\", .bool false)]", "--onbiosdisk=QX": "[(c!\"onbiosdisk\", .str c!\"QX\")]", "--ondisk=QX": "[(c!\"disk\", .str c!\"QX\")]", "--ondrive=QX": "[(c!\"disk\", .str c!\"QX\")]", "--onpart=QX": "[(c!\"onPart\", .str c!\"QX\")]", "--usepart=QX": "[(c!\"onPart\", .str c!\"QX\")]", "--recommended": "[(c!\"recommended\", .bool true)]", "--size=42": "[(c!\"size\", .int 42)]", "--fsoptions=QX": "[(c!\"fsopts\", .str c!\"QX\")]", "--label=QX": "[(c!\"label\", .str c!\"QX\")]", "--bytes-per-inode=QX": "REFUSED", "--fsprofile=QX": "[(c!\"fsprofile\", .str c!\"QX\")]", "--encrypted": "[(c!\"encrypted\", .bool true)]", "--passphrase=QX": "[(c!\"passphrase\", .str c!\"QX\")]", "--start=QX": "REFUSED", "--end=QX": "REFUSED", "--escrowcert=QX": "[(c!\"escrowcert\", .str c!\"QX\")]", "--backuppassphrase": "[(c!\"backuppassphrase\", .bool true)]", "--resize": "REFUSED", "--hibernation": "[(c!\"hibernation\", .bool true)]", "--cipher=QX": "[(c!\"cipher\", .str c!\"QX\")]", "--mkfsoptions=QX": "REFUSED", "--luks-version=QX": "REFUSED", "--pbkdf=QX": "REFUSED", "--pbkdf-memory=42": "REFUSED", "--pbkdf-time=42": "REFUSED", "--pbkdf-iterations=42": "REFUSED", "--bytes-per-inode=42": "REFUSED"}}, "279": {"cmd": "part", "cls": "F20_Partition.cls F18_PartData.cls", "vs": [18000, 19000, 20000], "base": "/x --onpart=sda1 --size=1", "bi": 1, "lines": ["--resize", "--noformat"], "ok": true, "kind": "L", "d": "[(c!\"lineno\", .int 7), (c!\"active\", .bool false), (c!\"primOnly\", .bool false), (c!\"fstype\", .str c!\"\"), (c!\"grow\", .bool false), (c!\"maxSizeMB\", .int 0), (c!\"format\", .bool true), (c!\"onbiosdisk\", .str c!\"\"), (c!\"disk\", .str c!\"\"), (c!\"onPart\", .str c!\"sda1\"), (c!\"recommended\", .bool false), (c!\"size\", .int 1), (c!\"mountpoint\", .str c!\"/x\"), (c!\"fsopts\", .str c!\"\"), (c!\"label\", .str c!\"\"), (c!\"fsprofile\", .str c!\"\"), (c!\"encrypted\", .bool false), (c!\"passphrase\", .str c!\"\"), (c!\"escrowcert\", .str c!\"\"), (c!\"backuppassphrase\", .bool false), (c!\"resize\", .bool false), (c!\"hibernation\", .bool false), (c!\"cipher\", .str c!\"\"), (c!\"mntpoint\", .list [c!\"/x\"])]", "bsets": "[]", "rows": {"--resize": "[(c!\"resize\", .bool true)]", "--noformat": "[(c!\"format\", .bool false)]"}}, "280": {"cmd": "partition", "cls": "F20_Partition.cls F18_PartData.cls", "vs": [18000, 19000, 20000], "base": "/x --size=1", "bi": 0, "lines": ["--active", "--asprimary", "--start=42", "--end=42", "--fstype=QX", "--type=QX", "--grow", "--maxsize=42", "--noformat", "--onbiosdisk=QX", "--ondisk=QX", "--ondrive=QX", "--onpart=QX", "--usepart=QX", "--recommended", "--size=42", "--fsoptions=QX", "--label=QX", "--bytes-per-inode=QX", "--fsprofile=QX", "--encrypted", "--passphrase=QX", "--start=QX", "--end=QX", "--escrowcert=QX", "--backuppassphrase", "--resize", "--hibernation", "--cipher=QX", "--mkfsoptions=QX", "--luks-version=QX", "--pbkdf=QX", "--pbkdf-memory=42", "--pbkdf-time=42", "--pbkdf-iterations=42", "--bytes-per-inode=42"], "ok": true, "kind": "L", "d": "[(c!\"lineno\", .int 7), (c!\"active\", .bool false), (c!\"primOnly\", .bool false), (c!\"fstype\", .str c!\"\"), (c!\"grow\", .bool false), (c!\"maxSizeMB\", .int 0), (c!\"format\", .bool true), (c!\"onbiosdisk\", .str c!\"\"), (c!\"disk\", .str c!\"\"), (c!\"onPart\", .str c!\"\"), (c!\"recommended\", .bool false), (c!\"size\", .int 1), (c!\"mountpoint\", .str c!\"/x\"), (c!\"fsopts\", .str c!\"\"), (c!\"label\", .str c!\"\"), (c!\"fsprofile\", .str c!\"\"), (c!\"encrypted\", .bool false), (c!\"passphrase\", .str c!\"\"), (c!\"escrowcert\", .str c!\"\"), (c!\"backuppassphrase\", .bool false), (c!\"resize\", .bool false), (c!\"hibernation\", .bool false), (c!\"cipher\", .str c!\"\"), (c!\"mntpoint\", .list [c!\"/x\"])]", "bsets": "[]", "rows": {"--active": "[(c!\"active\", .bool true)]", "--asprimary": "[(c!\"primOnly\", .bool true)]", "--start=42": "REFUSED", "--end=42": "REFUSED", "--fstype=QX": "[(c!\"fstype\", .str c!\"QX\")]", "--type=QX": "[(c!\"fstype\", .str c!\"QX\")]", "--grow": "[(c!\"grow\", .bool true)]", "--maxsize=42": "[(c!\"maxSizeMB\", .int 42)]", "--noformat": "[(c!\"format\", .bool false)]", "--onbiosdisk=QX": "[(c!\"onbiosdisk\", .str c!\"QX\")]", "--ondisk=QX": "[(c!\"disk\", .str c!\"QX\")]", "--ondrive=QX": "[(c!\"disk\", .str c!\"QX\")]", "--onpart=QX": "[(c!\"onPart\", .str c!\"QX\")]", "--usepart=QX": "[(c!\"onPart\", .str c!\"QX\")]", "--recommended": "[(c!\"recommended\", .bool true)]", "--size=42": "[(c!\"size\", .int 42)]", "--fsoptions=QX": "[(c!\"fsopts\", .str c!\"QX\")]", "--label=QX": "[(c!\"label\", .str c!\"QX\")]", "--bytes-per-inode=QX": "REFUSED", "--fsprofile=QX": "[(c!\"fsprofile\", .str c!\"QX\")]", "--encrypted": "[(c!\"encrypted\", .bool true)]", "--passphrase=QX": "[(c!\"passphrase\", .str c!\"QX\")]", "--start=QX": "REFUSED", "--end=QX": "REFUSED", "--escrowcert=QX": "[(c!\"escrowcert\", .str c!\"QX\")]", "--backuppassphrase": "[(c!\"backuppassphrase\", .bool true)]", "--resize": "REFUSED", "--hibernation": "[(c!\"hibernation\", .bool true)]", "--cipher=QX": "[(c!\"cipher\", .str c!\"QX\")]", "--mkfsoptions=QX": "REFUSED", "--luks-version=QX": "REFUSED", "--pbkdf=QX": "REFUSED", "--pbkdf-memory=42": "REFUSED", "--pbkdf-time=42": "REFUSED", "--pbkdf-iterations=42": "REFUSED", "--bytes-per-inode=42": "REFUSED"}}, "281": {"cmd": "partition", "cls": "F20_Partition.cls F18_PartData.cls", "vs": [18000, 19000, 20000], "base": "/x --onpart=sda1 --size=1", "bi": 1, "lines": ["--resize", "--noformat"], "ok": true, "kind": "L", "d": "[(c!\"lineno\", .int 7), (c!\"active\", .bool false), (c!\"primOnly\", .bool false), (c!\"fstype\", .str c!\"\"), (c!\"grow\", .bool false), (c!\"maxSizeMB\", .int 0), (c!\"format\", .bool true), (c!\"onbiosdisk\", .str c!\"\"), (c!\"disk\", .str c!\"\"), (c!\"onPart\", .str c!\"sda1\"), (c!\"recommended\", .bool false), (c!\"size\", .int 1), (c!\"mountpoint\", .str c!\"/x\"), (c!\"fsopts\", .str c!\"\"), (c!\"label\", .str c!\"\"), (c!\"fsprofile\", .str c!\"\"), (c!\"encrypted\", .bool false), (c!\"passphrase\", .str c!\"\"), (c!\"escrowcert\", .str c!\"\"), (c!\"backuppassphrase\", .bool false), (c!\"resize\", .bool false), (c!\"hibernation\", .bool false), (c!\"cipher\", .str c!\"\"), (c!\"mntpoint\", .list [c!\"/x\"])]", "bsets": "[]", "rows": {"--resize": "[(c!\"resize\", .bool true)]", "--noformat": "[(c!\"format\", .bool false)]"}}, "282": {"cmd": "raid", "cls": "F20_Raid.cls F18_RaidData.cls", "vs": [18000, 19000, 20000], "base": "/x --device=1 --level=RAID1 raid.1 raid.2", "bi": 0, "lines": ["--device=QX", "--fstype=QX", "--level=RAID0", "--level=0", "--level=RAID1", "--level=1", "--level=RAID5", "--level=5", "--level=RAID6", "--level=6", "--level=RAID10", "--level=10", "--noformat", "--spares=42", "--useexisting", "--fsoptions=QX", "--bytes-per-inode=QX", "--fsprofile=QX", "--encrypted", "--passphrase=QX", "--escrowcert=QX", "--backuppassphrase", "--level=RAID4", "--level=4", "--label=QX", "--cipher=QX", "--mkfsoptions=QX", "--chunksize=42", "--luks-version=QX", "--pbkdf=QX", "--pbkdf-memory=42", "--pbkdf-time=42", "--pbkdf-iterations=42", "--bytes-per-inode=42"], "ok": true, "kind": "L", "d": "[(c!\"lineno\", .int 7), (c!\"device\", .str c!\"1\"), (c!\"fstype\", .str c!\"\"), (c!\"level\", .str c!\"RAID1\"), (c!\"format\", .bool true), (c!\"spares\", .int 0), (c!\"preexist\", .bool false), (c!\"mountpoint\", .str c!\"/x\"), (c!\"members\", .list [c!\"raid.1\", c!\"raid.2\"]), (c!\"fsopts\", .str c!\"\"), (c!\"fsprofile\", .str c!\"\"), (c!\"encrypted\", .bool false), (c!\"passphrase\", .str c!\"\"), (c!\"escrowcert\", .str c!\"\"), (c!\"backuppassphrase\", .bool false), (c!\"label\", .str c!\"\"), (c!\"cipher\", .str c!\"\"), (c!\"mntpoint\", .list [c!\"/x\"]), (c!\"partitions\", .list [c!\"raid.1\", c!\"raid.2\"])]", "bsets": "[]", "rows": {"--device=QX": "[(c!\"device\", .str c!\"QX\")]", "--fstype=QX": "[(c!\"fstype\", .str c!\"QX\")]", "--level=RAID0": "[(c!\"level\", .str c!\"RAID0\")]", "--level=0": "[(c!\"level\", .str c!\"RAID0\")]", "--level=RAID1": "[]", "--level=1": "[]", "--level=RAID5": "[(c!\"level\", .str c!\"RAID5\")]", "--level=5": "[(c!\"level\", .str c!\"RAID5\")]", "--level=RAID6": "[(c!\"level\", .str c!\"RAID6\")]", "--level=6": "[(c!\"level\", .str c!\"RAID6\")]", "--level=RAID10": "[(c!\"level\", .str c!\"RAID10\")]", "--level=10": "[(c!\"level\", .str c!\"RAID10\")]", "--noformat": "REFUSED", "--spares=42": "[(c!\"spares\", .int 42)]", "--useexisting": "REFUSED", "--fsoptions=QX": "[(c!\"fsopts\", .str c!\"QX\")]", "--bytes-per-inode=QX": "REFUSED", "--fsprofile=QX": "[(c!\"fsprofile\", .str c!\"QX\")]", "--encrypted": "[(c!\"encrypted\", .bool true)]", "--passphrase=QX": "[(c!\"passphrase\", .str c!\"QX\")]", "--escrowcert=QX": "[(c!\"escrowcert\", .str c!\"QX\")]", "--backuppassphrase": "[(c!\"backuppassphrase\", .bool true)]", "--level=RAID4": "[(c!\"level\", .str c!\"RAID4\")]", "--level=4": "[(c!\"level\", .str c!\"RAID4\")]", "--label=QX": "[(c!\"label\", .str c!\"QX\")]", "--cipher=QX": "[(c!\"cipher\", .str c!\"QX\")]", "--mkfsoptions=QX": "REFUSED", "--chunksize=42": "REFUSED", "--luks-version=QX": "REFUSED", "--pbkdf=QX": "REFUSED", "--pbkdf-memory=42": "REFUSED", "--pbkdf-time=42": "REFUSED", "--pbkdf-iterations=42": "REFUSED", "--bytes-per-inode=42": "REFUSED"}}, "283": {"cmd": "raid", "cls": "F20_Raid.cls F18_RaidData.cls", "vs": [18000, 19000, 20000], "base": "/x --device=1 --noformat", "bi": 1, "lines": ["--fstype=ext4", "--label=QX"], "ok": true, "kind": "L", "d": "[(c!\"lineno\", .int 7), (c!\"device\", .str c!\"1\"), (c!\"fstype\", .str c!\"\"), (c!\"level\", .str c!\"\"), (c!\"format\", .bool false), (c!\"spares\", .int 0), (c!\"preexist\", .bool true), (c!\"mountpoint\", .str c!\"/x\"), (c!\"members\", .list []), (c!\"fsopts\", .str c!\"\"), (c!\"fsprofile\", .str c!\"\"), (c!\"encrypted\", .bool false), (c!\"passphrase\", .str c!\"\"), (c!\"escrowcert\", .str c!\"\"), (c!\"backuppassphrase\", .bool false), (c!\"label\", .str c!\"\"), (c!\"cipher\", .str c!\"\"), (c!\"mntpoint\", .list [c!\"/x\"]), (c!\"partitions\", .list [])]", "bsets": "[]", "rows": {"--fstype=ext4": "[(c!\"fstype\", .str c!\"ext4\")]", "--label=QX": "[(c!\"label\", .str c!\"QX\")]"}}, "284": {"cmd": "raid", "cls": "F20_Raid.cls F18_RaidData.cls", "vs": [18000, 19000, 20000], "base": "/x --device=1 --useexisting", "bi": 2, "lines": ["--fstype=ext4", "--label=QX"], "ok": true, "kind": "L", "d": "[(c!\"lineno\", .int 7), (c!\"device\", .str c!\"1\"), (c!\"fstype\", .str c!\"\"), (c!\"level\", .str c!\"\"), (c!\"format\", .bool true), (c!\"spares\", .int 0), (c!\"preexist\", .bool true), (c!\"mountpoint\", .str c!\"/x\"), (c!\"members\", .list []), (c!\"fsopts\", .str c!\"\"), (c!\"fsprofile\", .str c!\"\"), (c!\"encrypted\", .bool false), (c!\"passphrase\", .str c!\"\"), (c!\"escrowcert\", .str c!\"\"), (c!\"backuppassphrase\", .bool false), (c!\"label\", .str c!\"\"), (c!\"cipher\", .str c!\"\"), (c!\"mntpoint\", .list [c!\"/x\"]), (c!\"partitions\", .list [])]", "bsets": "[]", "rows": {"--fstype=ext4": "[(c!\"fstype\", .str c!\"ext4\")]", "--label=QX": "[(c!\"label\", .str c!\"QX\")]"}}, "285": {"cmd": "raid", "cls": "F20_Raid.cls F18_RaidData.cls", "vs": [18000, 19000, 20000], "base": "/x --device=1 --level=RAID1 raid.1 raid.2 raid.3", "bi": 3, "lines": ["--device=md7", "--device=data", "--level=0", "--level=RAID5", "--level=raid6", "--level=10", "--level=linear", "--spares=1", "--spares=2"], "ok": true, "kind": "L", "d": "[(c!\"lineno\", .int 7), (c!\"device\", .str c!\"1\"), (c!\"fstype\", .str c!\"\"), (c!\"level\", .str c!\"RAID1\"), (c!\"format\", .bool true), (c!\"spares\", .int 0), (c!\"preexist\", .bool false), (c!\"mountpoint\", .str c!\"/x\"), (c!\"members\", .list [c!\"raid.1\", c!\"raid.2\", c!\"raid.3\"]), (c!\"fsopts\", .str c!\"\"), (c!\"fsprofile\", .str c!\"\"), (c!\"encrypted\", .bool false), (c!\"passphrase\", .str c!\"\"), (c!\"escrowcert\", .str c!\"\"), (c!\"backuppassphrase\", .bool false), (c!\"label\", .str c!\"\"), (c!\"cipher\", .str c!\"\"), (c!\"mntpoint\", .list [c!\"/x\"]), (c!\"partitions\", .list [c!\"raid.1\", c!\"raid.2\", c!\"raid.3\"])]", "bsets": "[]", "rows": {"--device=md7": "[(c!\"device\", .str c!\"7\")]", "--device=data": "[(c!\"device\", .str c!\"data\")]", "--level=0": "[(c!\"level\", .str c!\"RAID0\")]", "--level=RAID5": "[(c!\"level\", .str c!\"RAID5\")]", "--level=raid6": "[(c!\"level\", .str c!\"RAID6\")]", "--level=10": "[(c!\"level\", .str c!\"RAID10\")]", "--level=linear": "REFUSED", "--spares=1": "[(c!\"spares\", .int 1)]", "--spares=2": "[(c!\"spares\", .int 2)]"}}, "286": {"cmd": "autopart", "cls": "F21_AutoPart.cls", "vs": [19000, 20000], "base": "", "bi": 0, "lines": ["--encrypted", "--passphrase=QX", "--escrowcert=QX", "--backuppassphrase", "--nolvm", "--type=lvm", "--type=btrfs", "--type=plain", "--type=partition", "--cipher=QX", "--type=thinp", "--fstype=QX", "--nohome", "--noboot", "--noswap", "--luks-version=QX", "--pbkdf=QX", "--pbkdf-memory=42", "--pbkdf-time=42", "--pbkdf-iterations=42"], "ok": true, "kind": "P", "d": "[(c!\"autopart\", .bool true), (c!\"encrypted\", .bool false), (c!\"passphrase\", .str c!\"\"), (c!\"escrowcert\", .str c!\"\"), (c!\"backuppassphrase\", .bool false), (c!\"lvm\", .bool true), (c!\"type\", .none), (c!\"cipher\", .str c!\"\"), (c!\"fstype\", .str c!\"\")]", "bsets": "[(c!\"autopart\", .bool true)]", "rows": {"--encrypted": "[(c!\"encrypted\", .bool true)]", "--passphrase=QX": "[(c!\"passphrase\", .str c!\"QX\")]", "--escrowcert=QX": "[(c!\"escrowcert\", .str c!\"QX\")]", "--backuppassphrase": "[(c!\"backuppassphrase\", .bool true)]", "--nolvm": "[(c!\"type\", .int 0)]", "--type=lvm": "[(c!\"type\", .int 2)]", "--type=btrfs": "[(c!\"type\", .int 1)]", "--type=plain": "[(c!\"type\", .int 0)]", "--type=partition": "[(c!\"type\", .int 0)]", "--cipher=QX": "[(c!\"cipher\", .str c!\"QX\")]", "--type=thinp": "[(c!\"type\", .int 3)]", "--fstype=QX": "[(c!\"fstype\", .str c!\"QX\")]", "--nohome": "REFUSED", "--noboot": "REFUSED", "--noswap": "REFUSED", "--luks-version=QX": "REFUSED", "--pbkdf=QX": "REFUSED", "--pbkdf-memory=42": "REFUSED", "--pbkdf-time=42": "REFUSED", "--pbkdf-iterations=42": "REFUSED"}}, "287": {"cmd": "bootloader", "cls": "F21_Bootloader.cls", "vs": [19000, 20000, 21000, 22000, 23000, 24000, 25000, 26000], "base": "", "bi": 0, "lines": ["--append=QX", "--location=mbr", "--location=partition", "--location=none", "--location=boot", "--lba32", "--password=QX", "--md5pass=QX", "--upgrade", "--driveorder=QX", "--timeout=42", "--default=QX", "--iscrypted", "--boot-drive=QX", "--leavebootorder", "--extlinux", "--disabled", "--nombr", "--linear", "--nolinear", "--useLilo", "--hvargs=QX"], "ok": true, "kind": "P", "d": "[(c!\"driveorder\", .list []), (c!\"appendLine\", .str c!\"\"), (c!\"location\", .str c!\"mbr\"), (c!\"md5pass\", .str c!\"\"), (c!\"password\", .str c!\"\"), (c!\"upgrade\", .bool false), (c!\"timeout\", .none), (c!\"default\", .str c!\"\"), (c!\"isCrypted\", .bool false), (c!\"bootDrive\", .str c!\"\"), (c!\"leavebootorder\", .bool false), (c!\"extlinux\", .bool false), (c!\"disabled\", .bool false), (c!\"nombr\", .bool false)]", "bsets": "[(c!\"location\", .str c!\"mbr\")]", "rows": {"--append=QX": "[(c!\"appendLine\", .str c!\"QX\")]", "--location=mbr": "[]", "--location=partition": "[(c!\"location\", .str c!\"partition\")]", "--location=none": "[(c!\"location\", .str c!\"none\")]", "--location=boot": "[(c!\"location\", .str c!\"boot\")]", "--lba32": "REFUSED", "--password=QX": "[(c!\"password\", .str c!\"QX\")]", "--md5pass=QX": "[(c!\"password\", .str c!\"QX\"), (c!\"isCrypted\", .bool true)]", "--upgrade": "[(c!\"upgrade\", .bool true)]", "--driveorder=QX": "[(c!\"driveorder\", .list [c!\"QX\"])]", "--timeout=42": "[(c!\"timeout\", .int 42)]", "--default=QX": "[(c!\"default\", .str c!\"QX\")]", "--iscrypted": "[(c!\"isCrypted\", .bool true)]", "--boot-drive=QX": "[(c!\"bootDrive\", .str c!\"QX\")]", "--leavebootorder": "[(c!\"leavebootorder\", .bool true)]", "--extlinux": "[(c!\"extlinux\", .bool true)]", "--disabled": "[(c!\"disabled\", .bool true)]", "--nombr": "[(c!\"nombr\", .bool true)]", "--linear": "REFUSED", "--nolinear": "REFUSED", "--useLilo": "REFUSED", "--hvargs=QX": "REFUSED"}}, "288": {"cmd": "clearpart", "cls": "F21_ClearPart.cls", "vs": [19000, 20000, 21000, 22000, 23000, 24000, 25000], "base": "", "bi": 0, "lines": ["--all", "--drives=QX", "--initlabel", "--linux", "--none", "--list=QX", "--disklabel=QX", "--cdl"], "ok": true, "kind": "P", "d": "[(c!\"drives\", .list []), (c!\"initAll\", .bool false), (c!\"type\", .none), (c!\"devices\", .list []), (c!\"disklabel\", .str c!\"\")]", "bsets": "[]", "rows": {"--all": "[(c!\"type\", .int 1)]", "--drives=QX": "[(c!\"drives\", .list [c!\"QX\"])]", "--initlabel": "[(c!\"initAll\", .bool true)]", "--linux": "[(c!\"type\", .int 0)]", "--none": "[(c!\"type\", .int 2)]", "--list=QX": "[(c!\"type\", .int 3), (c!\"devices\", .list [c!\"QX\"])]", "--disklabel=QX": "[(c!\"disklabel\", .str c!\"QX\")]", "--cdl": "REFUSED"}}, "289": {"cmd": "clearpart", "cls": "F21_ClearPart.cls", "vs": [19000, 20000, 21000, 22000, 23000, 24000, 25000], "base": "--all", "bi": 1, "lines": ["--initlabel", "--drives=QX", "--linux"], "ok": true, "kind": "P", "d": "[(c!\"drives\", .list []), (c!\"initAll\", .bool false), (c!\"type\", .int 1), (c!\"devices\", .list []), (c!\"disklabel\", .str c!\"\")]", "bsets": "[(c!\"type\", .int 1)]", "rows": {"--initlabel": "[(c!\"initAll\", .bool true)]", "--drives=QX": "[(c!\"drives\", .list [c!\"QX\"])]", "--linux": "[(c!\"type\", .int 0)]"}}, "290": {"cmd": "logvol", "cls": "F21_LogVol.cls F21_LogVolData.cls", "vs": [19000, 20000], "base": "/x --name=n --vgname=g --size=1", "bi": 0, "lines": ["--fstype=QX", "--grow", "--maxsize=42", "--name=QX", "--noformat", "--percent=42", "--recommended", "--size=42", "--useexisting", "--vgname=QX", "--fsoptions=QX", "--bytes-per-inode=QX", "--fsprofile=QX", "--encrypted", "--passphrase=QX", "--escrowcert=QX", "--backuppassphrase", "--label=QX", "--resize", "--hibernation", "--cipher=QX", "--thinpool", "--thin", "--poolname=QX", "--chunksize=42", "--metadatasize=42", "--profile=QX", "--cachesize=42", "--cachemode=QX", "--cachepvs=QX", "--mkfsoptions=QX", "--luks-version=QX", "--pbkdf=QX", "--pbkdf-memory=42", "--pbkdf-time=42", "--pbkdf-iterations=42", "--bytes-per-inode=42"], "ok": true, "kind": "L", "d": "[(c!\"lineno\", .int 7), (c!\"fstype\", .str c!\"\"), (c!\"grow\", .bool false), (c!\"maxSizeMB\", .int 0), (c!\"name\", .str c!\"n\"), (c!\"format\", .bool true), (c!\"percent\", .int 0), (c!\"recommended\", .bool false), (c!\"size\", .int 1), (c!\"preexist\", .bool false), (c!\"vgname\", .str c!\"g\"), (c!\"mountpoint\", .str c!\"/x\"), (c!\"fsopts\", .str c!\"\"), (c!\"fsprofile\", .str c!\"\"), (c!\"encrypted\", .bool false), (c!\"passphrase\", .str c!\"\"), (c!\"escrowcert\", .str c!\"\"), (c!\"backuppassphrase\", .bool false), (c!\"label\", .str c!\"\"), (c!\"resize\", .bool false), (c!\"hibernation\", .bool false), (c!\"cipher\", .str c!\"\"), (c!\"thin_pool\", .bool false), (c!\"thin_volume\", .bool false), (c!\"pool_name\", .str c!\"\"), (c!\"chunk_size\", .none), (c!\"metadata_size\", .none), (c!\"profile\", .str c!\"\"), (c!\"mntpoint\", .list [c!\"/x\"])]", "bsets": "[]", "rows": {"--fstype=QX": "[(c!\"fstype\", .str c!\"QX\")]", "--grow": "[(c!\"grow\", .bool true)]", "--maxsize=42": "[(c!\"maxSizeMB\", .int 42)]", "--name=QX": "[(c!\"name\", .str c!\"QX\")]", "--noformat": "[(c!\"format\", .bool false), (c!\"preexist\", .bool true)]", "--percent=42": "REFUSED", "--recommended": "[(c!\"recommended\", .bool true)]", "--size=42": "[(c!\"size\", .int 42)]", "--useexisting": "[(c!\"preexist\", .bool true)]", "--vgname=QX": "[(c!\"vgname\", .str c!\"QX\")]", "--fsoptions=QX": "[(c!\"fsopts\", .str c!\"QX\")]", "--bytes-per-inode=QX": "REFUSED", "--fsprofile=QX": "[(c!\"fsprofile\", .str c!\"QX\")]", "--encrypted": "[(c!\"encrypted\", .bool true)]", "--passphrase=QX": "[(c!\"passphrase\", .str c!\"QX\")]", "--escrowcert=QX": "[(c!\"escrowcert\", .str c!\"QX\")]", "--backuppassphrase": "[(c!\"backuppassphrase\", .bool true)]", "--label=QX": "[(c!\"label\", .str c!\"QX\")]", "--resize": "REFUSED", "--hibernation": "[(c!\"hibernation\", .bool true)]", "--cipher=QX": "[(c!\"cipher\", .str c!\"QX\")]", "--thinpool": "[(c!\"thin_pool\", .bool true)]", "--thin": "REFUSED", "--poolname=QX": "[(c!\"pool_name\", .str c!\"QX\")]", "--chunksize=42": "REFUSED", "--metadatasize=42": "REFUSED", "--profile=QX": "[(c!\"profile\", .str c!\"QX\")]", "--cachesize=42": "REFUSED", "--cachemode=QX": "REFUSED", "--cachepvs=QX": "REFUSED", "--mkfsoptions=QX": "REFUSED", "--luks-version=QX": "REFUSED", "--pbkdf=QX": "REFUSED", "--pbkdf-memory=42": "REFUSED", "--pbkdf-time=42": "REFUSED", "--pbkdf-iterations=42": "REFUSED", "--bytes-per-inode=42": "REFUSED"}}, "291": {"cmd": "logvol", "cls": "F21_LogVol.cls F21_LogVolData.cls", "vs": [19000, 20000], "base": "/x --name=n --vgname=g --useexisting", "bi": 1, "lines": ["--size=42", "--resize", "--noformat", "--fstype=ext4"], "ok": true, "kind": "L", "d": "[(c!\"lineno\", .int 7), (c!\"fstype\", .str c!\"\"), (c!\"grow\", .bool false), (c!\"maxSizeMB\", .int 0), (c!\"name\", .str c!\"n\"), (c!\"format\", .bool true), (c!\"percent\", .int 0), (c!\"recommended\", .bool false), (c!\"size\", .none), (c!\"preexist\", .bool true), (c!\"vgname\", .str c!\"g\"), (c!\"mountpoint\", .str c!\"/x\"), (c!\"fsopts\", .str c!\"\"), (c!\"fsprofile\", .str c!\"\"), (c!\"encrypted\", .bool false), (c!\"passphrase\", .str c!\"\"), (c!\"escrowcert\", .str c!\"\"), (c!\"backuppassphrase\", .bool false), (c!\"label\", .str c!\"\"), (c!\"resize\", .bool false), (c!\"hibernation\", .bool false), (c!\"cipher\", .str c!\"\"), (c!\"thin_pool\", .bool false), (c!\"thin_volume\", .bool false), (c!\"pool_name\", .str c!\"\"), (c!\"chunk_size\", .none), (c!\"metadata_size\", .none), (c!\"profile\", .str c!\"\"), (c!\"mntpoint\", .list [c!\"/x\"])]", "bsets": "[]", "rows": {"--size=42": "[(c!\"size\", .int 42)]", "--resize": "REFUSED", "--noformat": "[(c!\"format\", .bool false)]", "--fstype=ext4": "[(c!\"fstype\", .str c!\"ext4\")]"}}, "292": {"cmd": "logvol", "cls": "F21_LogVol.cls F21_LogVolData.cls", "vs": [19000, 20000], "base": "/x --name=n --vgname=g", "bi": 2, "lines": ["--percent=42", "--useexisting", "--noformat"], "ok": false}, "293": {"cmd": "logvol", "cls": "F21_LogVol.cls F21_LogVolData.cls", "vs": [19000, 20000], "base": "/x --name=n --vgname=g --size=1 --poolname=p", "bi": 3, "lines": ["--thin", "--thinpool", "--label=QX"], "ok": true, "kind": "L", "d": "[(c!\"lineno\", .int 7), (c!\"fstype\", .str c!\"\"), (c!\"grow\", .bool false), (c!\"maxSizeMB\", .int 0), (c!\"name\", .str c!\"n\"), (c!\"format\", .bool true), (c!\"percent\", .int 0), (c!\"recommended\", .bool false), (c!\"size\", .int 1), (c!\"preexist\", .bool false), (c!\"vgname\", .str c!\"g\"), (c!\"mountpoint\", .str c!\"/x\"), (c!\"fsopts\", .str c!\"\"), (c!\"fsprofile\", .str c!\"\"), (c!\"encrypted\", .bool false), (c!\"passphrase\", .str c!\"\"), (c!\"escrowcert\", .str c!\"\"), (c!\"backuppassphrase\", .bool false), (c!\"label\", .str c!\"\"), (c!\"resize\", .bool false), (c!\"hibernation\", .bool false), (c!\"cipher\", .str c!\"\"), (c!\"thin_pool\", .bool false), (c!\"thin_volume\", .bool false), (c!\"pool_name\", .str c!\"p\"), (c!\"chunk_size\", .none), (c!\"metadata_size\", .none), (c!\"profile\", .str c!\"\"), (c!\"mntpoint\", .list [c!\"/x\"])]", "bsets": "[]", "rows": {"--thin": "[(c!\"thin_volume\", .bool true)]", "--thinpool": "[(c!\"thin_pool\", .bool true)]", "--label=QX": "[(c!\"label\", .str c!\"QX\")]"}}, "294": {"cmd": "logvol", "cls": "F21_LogVol.cls F21_LogVolData.cls", "vs": [19000, 20000], "base": "none --name=n --vgname=g --size=1 --thinpool", "bi": 4, "lines": ["--chunksize=42", "--metadatasize=42", "--profile=QX", "--grow"], "ok": true, "kind": "L", "d": "[(c!\"lineno\", .int 7), (c!\"fstype\", .str c!\"\"), (c!\"grow\", .bool false), (c!\"maxSizeMB\", .int 0), (c!\"name\", .str c!\"n\"), (c!\"format\", .bool true), (c!\"percent\", .int 0), (c!\"recommended\", .bool false), (c!\"size\", .int 1), (c!\"preexist\", .bool false), (c!\"vgname\", .str c!\"g\"), (c!\"mountpoint\", .str c!\"none\"), (c!\"fsopts\", .str c!\"\"), (c!\"fsprofile\", .str c!\"\"), (c!\"encrypted\", .bool false), (c!\"passphrase\", .str c!\"\"), (c!\"escrowcert\", .str c!\"\"), (c!\"backuppassphrase\", .bool false), (c!\"label\", .str c!\"\"), (c!\"resize\", .bool false), (c!\"hibernation\", .bool false), (c!\"cipher\", .str c!\"\"), (c!\"thin_pool\", .bool true), (c!\"thin_volume\", .bool false), (c!\"pool_name\", .str c!\"\"), (c!\"chunk_size\", .none), (c!\"metadata_size\", .none), (c!\"profile\", .str c!\"\"), (c!\"mntpoint\", .list [c!\"none\"])]", "bsets": "[]", "rows": {"--chunksize=42": "[(c!\"chunk_size\", .int 42)]", "--metadatasize=42": "[(c!\"metadata_size\", .int 42)]", "--profile=QX": "[(c!\"profile\", .str c!\"QX\")]", "--grow": "[(c!\"grow\", .bool true)]"}}, "295": {"cmd": "logvol", "cls": "F21_LogVol.cls F21_LogVolData.cls", "vs": [19000, 20000], "base": "/x --name=n --vgname=g --size=1 --cachepvs=a --cachesize=5", "bi": 5, "lines": ["--cachemode=writeback", "--cachemode=writethrough"], "ok": false}, "296": {"cmd": "network", "cls": "F21_Network.cls F21_NetworkData.cls", "vs": [19000], "base": "", "bi": 0, "lines": ["--bootproto=dhcp", "--bootproto=bootp", "--bootproto=static", "--bootproto=query", "--dhcpclass=QX", "--device=QX", "--essid=QX", "--ethtool=QX", "--gateway=QX", "--hostname=QX", "--ip=QX", "--mtu=QX", "--nameserver=QX", "--netmask=QX", "--nodns", "--onboot=yes", "--onboot=off", "--wepkey=QX", "--notksdevice", "--noipv4", "--noipv6", "--ipv6=QX", "--bootproto=ibft", "--activate", "--nodefroute", "--wpakey=QX", "--bondslaves=QX", "--bondopts=QX", "--vlanid=QX", "--ipv6gateway=QX", "--teamslaves=QX", "--teamconfig=QX", "--interfacename=QX", "--bridgeslaves=QX", "--bridgeopts=QX", "--no-activate", "--bindto=mac"], "ok": true, "kind": "L", "d": "[(c!\"lineno\", .int 7), (c!\"bootProto\", .str c!\"dhcp\"), (c!\"dhcpclass\", .str c!\"\"), (c!\"device\", .str c!\"\"), (c!\"essid\", .str c!\"\"), (c!\"ethtool\", .str c!\"\"), (c!\"gateway\", .str c!\"\"), (c!\"hostname\", .str c!\"\"), (c!\"ip\", .str c!\"\"), (c!\"mtu\", .str c!\"\"), (c!\"nameserver\", .str c!\"\"), (c!\"netmask\", .str c!\"\"), (c!\"nodns\", .bool false), (c!\"onboot\", .bool true), (c!\"wepkey\", .str c!\"\"), (c!\"notksdevice\", .bool false), (c!\"noipv4\", .bool false), (c!\"noipv6\", .bool false), (c!\"ipv6\", .str c!\"\"), (c!\"activate\", .none), (c!\"nodefroute\", .bool false), (c!\"wpakey\", .str c!\"\"), (c!\"bondslaves\", .str c!\"\"), (c!\"bondopts\", .str c!\"\"), (c!\"vlanid\", .str c!\"\"), (c!\"ipv6gateway\", .str c!\"\"), (c!\"teamslaves\", .list []), (c!\"teamconfig\", .str c!\"\"), (c!\"interfacename\", .str c!\"\")]", "bsets": "[]", "rows": {"--bootproto=dhcp": "[]", "--bootproto=bootp": "[(c!\"bootProto\", .str c!\"bootp\")]", "--bootproto=static": "[(c!\"bootProto\", .str c!\"static\")]", "--bootproto=query": "[(c!\"bootProto\", .str c!\"query\")]", "--dhcpclass=QX": "[(c!\"dhcpclass\", .str c!\"QX\")]", "--device=QX": "[(c!\"device\", .str c!\"QX\")]", "--essid=QX": "[(c!\"essid\", .str c!\"QX\")]", "--ethtool=QX": "[(c!\"ethtool\", .str c!\"QX\")]", "--gateway=QX": "[(c!\"gateway\", .str c!\"QX\")]", "--hostname=QX": "[(c!\"hostname\", .str c!\"QX\")]", "--ip=QX": "[(c!\"ip\", .str c!\"QX\")]", "--mtu=QX": "[(c!\"mtu\", .str c!\"QX\")]", "--nameserver=QX": "[(c!\"nameserver\", .str c!\"QX\")]", "--netmask=QX": "[(c!\"netmask\", .str c!\"QX\")]", "--nodns": "[(c!\"nodns\", .bool true)]", "--onboot=yes": "[]", "--onboot=off": "[(c!\"onboot\", .bool false)]", "--wepkey=QX": "[(c!\"wepkey\", .str c!\"QX\")]", "--notksdevice": "[(c!\"notksdevice\", .bool true)]", "--noipv4": "[(c!\"noipv4\", .bool true)]", "--noipv6": "[(c!\"noipv6\", .bool true)]", "--ipv6=QX": "[(c!\"ipv6\", .str c!\"QX\")]", "--bootproto=ibft": "[(c!\"bootProto\", .str c!\"ibft\")]", "--activate": "[(c!\"activate\", .bool true)]", "--nodefroute": "[(c!\"nodefroute\", .bool true)]", "--wpakey=QX": "[(c!\"wpakey\", .str c!\"QX\")]", "--bondslaves=QX": "[(c!\"bondslaves\", .str c!\"QX\")]", "--bondopts=QX": "[(c!\"bondopts\", .str c!\"QX\")]", "--vlanid=QX": "[(c!\"vlanid\", .str c!\"QX\")]", "--ipv6gateway=QX": "[(c!\"ipv6gateway\", .str c!\"QX\")]", "--teamslaves=QX": "[(c!\"teamslaves\", .pairs [(c!\"QX\", c!\"\")])]", "--teamconfig=QX": "[(c!\"teamconfig\", .str c!\"QX\")]", "--interfacename=QX": "[(c!\"interfacename\", .str c!\"QX\")]", "--bridgeslaves=QX": "REFUSED", "--bridgeopts=QX": "REFUSED", "--no-activate": "REFUSED", "--bindto=mac": "REFUSED"}}, "297": {"cmd": "network", "cls": "F21_Network.cls F21_NetworkData.cls", "vs": [19000], "base": "--device=b --bridgeslaves=e", "bi": 1, "lines": ["--bridgeopts=stp=6", "--bridgeopts=stp", "--bridgeslaves=a,b"], "ok": false}, "298": {"cmd": "network", "cls": "F21_Network.cls F21_NetworkData.cls", "vs": [19000], "base": "--bootproto=static --ip=i", "bi": 2, "lines": ["--netmask=QX", "--gateway=QX"], "ok": true, "kind": "L", "d": "[(c!\"lineno\", .int 7), (c!\"bootProto\", .str c!\"static\"), (c!\"dhcpclass\", .str c!\"\"), (c!\"device\", .str c!\"\"), (c!\"essid\", .str c!\"\"), (c!\"ethtool\", .str c!\"\"), (c!\"gateway\", .str c!\"\"), (c!\"hostname\", .str c!\"\"), (c!\"ip\", .str c!\"i\"), (c!\"mtu\", .str c!\"\"), (c!\"nameserver\", .str c!\"\"), (c!\"netmask\", .str c!\"\"), (c!\"nodns\", .bool false), (c!\"onboot\", .bool true), (c!\"wepkey\", .str c!\"\"), (c!\"notksdevice\", .bool false), (c!\"noipv4\", .bool false), (c!\"noipv6\", .bool false), (c!\"ipv6\", .str c!\"\"), (c!\"activate\", .none), (c!\"nodefroute\", .bool false), (c!\"wpakey\", .str c!\"\"), (c!\"bondslaves\", .str c!\"\"), (c!\"bondopts\", .str c!\"\"), (c!\"vlanid\", .str c!\"\"), (c!\"ipv6gateway\", .str c!\"\"), (c!\"teamslaves\", .list []), (c!\"teamconfig\", .str c!\"\"), (c!\"interfacename\", .str c!\"\")]", "bsets": "[]", "rows": {"--netmask=QX": "[(c!\"netmask\", .str c!\"QX\")]", "--gateway=QX": "[(c!\"gateway\", .str c!\"QX\")]"}}, "299": {"cmd": "network", "cls": "F21_Network.cls F21_NetworkData.cls", "vs": [19000], "base": "--device=t", "bi": 3, "lines": ["--teamslaves=a", "--bondslaves=a,b", "--vlanid=5"], "ok": true, "kind": "L", "d": "[(c!\"lineno\", .int 7), (c!\"bootProto\", .str c!\"dhcp\"), (c!\"dhcpclass\", .str c!\"\"), (c!\"device\", .str c!\"t\"), (c!\"essid\", .str c!\"\"), (c!\"ethtool\", .str c!\"\"), (c!\"gateway\", .str c!\"\"), (c!\"hostname\", .str c!\"\"), (c!\"ip\", .str c!\"\"), (c!\"mtu\", .str c!\"\"), (c!\"nameserver\", .str c!\"\"), (c!\"netmask\", .str c!\"\"), (c!\"nodns\", .bool false), (c!\"onboot\", .bool true), (c!\"wepkey\", .str c!\"\"), (c!\"notksdevice\", .bool false), (c!\"noipv4\", .bool false), (c!\"noipv6\", .bool false), (c!\"ipv6\", .str c!\"\"), (c!\"activate\", .none), (c!\"nodefroute\", .bool false), (c!\"wpakey\", .str c!\"\"), (c!\"bondslaves\", .str c!\"\"), (c!\"bondopts\", .str c!\"\"), (c!\"vlanid\", .str c!\"\"), (c!\"ipv6gateway\", .str c!\"\"), (c!\"teamslaves\", .list []), (c!\"teamconfig\", .str c!\"\"), (c!\"interfacename\", .str c!\"\")]", "bsets": "[]", "rows": {"--teamslaves=a": "[(c!\"teamslaves\", .pairs [(c!\"a\", c!\"\")])]", "--bondslaves=a,b": "[(c!\"bondslaves\", .str c!\"a,b\")]", "--vlanid=5": "[(c!\"vlanid\", .str c!\"5\")]"}}, "300": {"cmd": "ostreesetup", "cls": "F21_OSTreeSetup.cls", "vs": [19000, 20000, 21000, 22000, 23000, 24000, 25000, 26000, 27000, 30000, 31000, 32000, 33000, 34000], "base": "--osname=o --url=http://u --ref=r", "bi": 0, "lines": ["--osname=QX", "--remote=QX", "--url=QX", "--ref=QX", "--nogpg"], "ok": true, "kind": "P", "d": "[(c!\"osname\", .str c!\"o\"), (c!\"remote\", .str c!\"o\"), (c!\"url\", .str c!\"http://u\"), (c!\"ref\", .str c!\"r\"), (c!\"nogpg\", .bool false)]", "bsets": "[(c!\"osname\", .str c!\"o\"), (c!\"remote\", .str c!\"o\"), (c!\"url\", .str c!\"http://u\"), (c!\"ref\", .str c!\"r\")]", "rows": {"--osname=QX": "[(c!\"osname\", .str c!\"QX\"), (c!\"remote\", .str c!\"QX\")]", "--remote=QX": "[(c!\"remote\", .str c!\"QX\")]", "--url=QX": "REFUSED", "--ref=QX": "[(c!\"ref\", .str c!\"QX\")]", "--nogpg": "[(c!\"nogpg\", .bool true)]"}}, "301": {"cmd": "repo", "cls": "F21_Repo.cls F21_RepoData.cls", "vs": [19000, 20000, 21000, 22000, 23000, 24000], "base": "--name=r --baseurl=b", "bi": 0, "lines": ["--name=QX", "--baseurl=QX", "--mirrorlist=QX", "--cost=42", "--excludepkgs=QX", "--includepkgs=QX", "--ignoregroups=yes", "--ignoregroups=off", "--proxy=QX", "--noverifyssl", "--install", "--metalink=QX", "--sslcacert=QX", "--sslclientcert=QX", "--sslclientkey=QX"], "ok": true, "kind": "L", "d": "[(c!\"lineno\", .int 7), (c!\"baseurl\", .str c!\"b\"), (c!\"mirrorlist\", .none), (c!\"name\", .str c!\"r\"), (c!\"cost\", .none), (c!\"includepkgs\", .list []), (c!\"excludepkgs\", .list []), (c!\"ignoregroups\", .none), (c!\"proxy\", .str c!\"\"), (c!\"noverifyssl\", .bool false), (c!\"install\", .bool false)]", "bsets": "[]", "rows": {"--name=QX": "[(c!\"name\", .str c!\"QX\")]", "--baseurl=QX": "[(c!\"baseurl\", .str c!\"QX\")]", "--mirrorlist=QX": "REFUSED", "--cost=42": "[(c!\"cost\", .int 42)]", "--excludepkgs=QX": "[(c!\"excludepkgs\", .list [c!\"QX\"])]", "--includepkgs=QX": "[(c!\"includepkgs\", .list [c!\"QX\"])]", "--ignoregroups=yes": "[(c!\"ignoregroups\", .bool true)]", "--ignoregroups=off": "[(c!\"ignoregroups\", .bool false)]", "--proxy=QX": "[(c!\"proxy\", .str c!\"QX\")]", "--noverifyssl": "[(c!\"noverifyssl\", .bool true)]", "--install": "[(c!\"install\", .bool true)]", "--metalink=QX": "REFUSED", "--sslcacert=QX": "REFUSED", "--sslclientcert=QX": "REFUSED", "--sslclientkey=QX": "REFUSED"}}, "302": {"cmd": "repo", "cls": "F21_Repo.cls F21_RepoData.cls", "vs": [19000, 20000, 21000, 22000, 23000, 24000], "base": "--name=r --mirrorlist=m", "bi": 1, "lines": ["--baseurl=QX", "--metalink=QX"], "ok": true, "kind": "L", "d": "[(c!\"lineno\", .int 7), (c!\"baseurl\", .str c!\"\"), (c!\"mirrorlist\", .str c!\"m\"), (c!\"name\", .str c!\"r\"), (c!\"cost\", .none), (c!\"includepkgs\", .list []), (c!\"excludepkgs\", .list []), (c!\"ignoregroups\", .none), (c!\"proxy\", .str c!\"\"), (c!\"noverifyssl\", .bool false), (c!\"install\", .bool false)]", "bsets": "[]", "rows": {"--baseurl=QX": "REFUSED", "--metalink=QX": "REFUSED"}}, "303": {"cmd": "repo", "cls": "F21_Repo.cls F21_RepoData.cls", "vs": [19000, 20000, 21000, 22000, 23000, 24000], "base": "--name=r --metalink=m", "bi": 2, "lines": ["--mirrorlist=QX"], "ok": false}, "304": {"cmd": "volgroup", "cls": "F21_VolGroup.cls F21_VolGroupData.cls", "vs": [19000, 20000, 21000, 22000, 23000, 24000, 25000, 26000, 27000, 30000, 31000, 32000, 33000, 34000], "base": "g pv.1", "bi": 0, "lines": ["--noformat", "--pesize=42", "--useexisting", "--reserved-space=42", "--reserved-percent=42"], "ok": true, "kind": "L", "d": "[(c!\"lineno\", .int 7), (c!\"format\", .bool true), (c!\"pesize\", .int 0), (c!\"preexist\", .bool false), (c!\"vgname\", .str c!\"g\"), (c!\"physvols\", .list [c!\"pv.1\"]), (c!\"reserved_space\", .none), (c!\"reserved_percent\", .none), (c!\"name\", .list [c!\"g\"]), (c!\"partitions\", .list [c!\"pv.1\"])]", "bsets": "[]", "rows": {"--noformat": "REFUSED", "--pesize=42": "[(c!\"pesize\", .int 42)]", "--useexisting": "REFUSED", "--reserved-space=42": "[(c!\"reserved_space\", .int 42)]", "--reserved-percent=42": "[(c!\"reserved_percent\", .int 42)]"}}, "305": {"cmd": "volgroup", "cls": "F21_VolGroup.cls F21_VolGroupData.cls", "vs": [19000, 20000, 21000, 22000, 23000, 24000, 25000, 26000, 27000, 30000, 31000, 32000, 33000, 34000], "base": "g --noformat", "bi": 1, "lines": [], "ok": true, "kind": "L", "d": "[(c!\"lineno\", .int 7), (c!\"format\", .bool false), (c!\"pesize\", .int 0), (c!\"preexist\", .bool true), (c!\"vgname\", .str c!\"g\"), (c!\"physvols\", .list []), (c!\"reserved_space\", .none), (c!\"reserved_percent\", .none), (c!\"name\", .list [c!\"g\"]), (c!\"partitions\", .list [])]", "bsets": "[]", "rows": {}}, "306": {"cmd": "volgroup", "cls": "F21_VolGroup.cls F21_VolGroupData.cls", "vs": [19000, 20000, 21000, 22000, 23000, 24000, 25000, 26000, 27000, 30000, 31000, 32000, 33000, 34000], "base": "g --useexisting", "bi": 2, "lines": ["--noformat"], "ok": true, "kind": "L", "d": "[(c!\"lineno\", .int 7), (c!\"format\", .bool true), (c!\"pesize\", .int 0), (c!\"preexist\", .bool true), (c!\"vgname\", .str c!\"g\"), (c!\"physvols\", .list []), (c!\"reserved_space\", .none), (c!\"reserved_percent\", .none), (c!\"name\", .list [c!\"g\"]), (c!\"partitions\", .list [])]", "bsets": "[]", "rows": {"--noformat": "[(c!\"format\", .bool false)]"}}, "307": {"cmd": "network", "cls": "F22_Network.cls F22_NetworkData.cls", "vs": [20000, 21000], "base": "", "bi": 0, "lines": ["--bootproto=dhcp", "--bootproto=bootp", "--bootproto=static", "--bootproto=query", "--dhcpclass=QX", "--device=QX", "--essid=QX", "--ethtool=QX", "--gateway=QX", "--hostname=QX", "--ip=QX", "--mtu=QX", "--nameserver=QX", "--netmask=QX", "--nodns", "--onboot=yes", "--onboot=off", "--wepkey=QX", "--notksdevice", "--noipv4", "--noipv6", "--ipv6=QX", "--bootproto=ibft", "--activate", "--nodefroute", "--wpakey=QX", "--bondslaves=QX", "--bondopts=QX", "--vlanid=QX", "--ipv6gateway=QX", "--teamslaves=QX", "--teamconfig=QX", "--interfacename=QX", "--bridgeslaves=QX", "--bridgeopts=QX", "--no-activate", "--bindto=mac"], "ok": true, "kind": "L", "d": "[(c!\"lineno\", .int 7), (c!\"bootProto\", .str c!\"dhcp\"), (c!\"dhcpclass\", .str c!\"\"), (c!\"device\", .str c!\"\"), (c!\"essid\", .str c!\"\"), (c!\"ethtool\", .str c!\"\"), (c!\"gateway\", .str c!\"\"), (c!\"hostname\", .str c!\"\"), (c!\"ip\", .str c!\"\"), (c!\"mtu\", .str c!\"\"), (c!\"nameserver\", .str c!\"\"), (c!\"netmask\", .str c!\"\"), (c!\"nodns\", .bool false), (c!\"onboot\", .bool true), (c!\"wepkey\", .str c!\"\"), (c!\"notksdevice\", .bool false), (c!\"noipv4\", .bool false), (c!\"noipv6\", .bool false), (c!\"ipv6\", .str c!\"\"), (c!\"activate\", .none), (c!\"nodefroute\", .bool false), (c!\"wpakey\", .str c!\"\"), (c!\"bondslaves\", .str c!\"\"), (c!\"bondopts\", .str c!\"\"), (c!\"vlanid\", .str c!\"\"), (c!\"ipv6gateway\", .str c!\"\"), (c!\"teamslaves\", .list []), (c!\"teamconfig\", .str c!\"\"), (c!\"interfacename\", .str c!\"\"), (c!\"bridgeslaves\", .str c!\"\"), (c!\"bridgeopts\", .str c!\"\")]", "bsets": "[]", "rows": {"--bootproto=dhcp": "[]", "--bootproto=bootp": "[(c!\"bootProto\", .str c!\"bootp\")]", "--bootproto=static": "[(c!\"bootProto\", .str c!\"static\")]", "--bootproto=query": "[(c!\"bootProto\", .str c!\"query\")]", "--dhcpclass=QX": "[(c!\"dhcpclass\", .str c!\"QX\")]", "--device=QX": "[(c!\"device\", .str c!\"QX\")]", "--essid=QX": "[(c!\"essid\", .str c!\"QX\")]", "--ethtool=QX": "[(c!\"ethtool\", .str c!\"QX\")]", "--gateway=QX": "[(c!\"gateway\", .str c!\"QX\")]", "--hostname=QX": "[(c!\"hostname\", .str c!\"QX\")]", "--ip=QX": "[(c!\"ip\", .str c!\"QX\")]", "--mtu=QX": "[(c!\"mtu\", .str c!\"QX\")]", "--nameserver=QX": "[(c!\"nameserver\", .str c!\"QX\")]", "--netmask=QX": "[(c!\"netmask\", .str c!\"QX\")]", "--nodns": "[(c!\"nodns\", .bool true)]", "--onboot=yes": "[]", "--onboot=off": "[(c!\"onboot\", .bool false)]", "--wepkey=QX": "[(c!\"wepkey\", .str c!\"QX\")]", "--notksdevice": "[(c!\"notksdevice\", .bool true)]", "--noipv4": "[(c!\"noipv4\", .bool true)]", "--noipv6": "[(c!\"noipv6\", .bool true)]", "--ipv6=QX": "[(c!\"ipv6\", .str c!\"QX\")]", "--bootproto=ibft": "[(c!\"bootProto\", .str c!\"ibft\")]", "--activate": "[(c!\"activate\", .bool true)]", "--nodefroute": "[(c!\"nodefroute\", .bool true)]", "--wpakey=QX": "[(c!\"wpakey\", .str c!\"QX\")]", "--bondslaves=QX": "[(c!\"bondslaves\", .str c!\"QX\")]", "--bondopts=QX": "[(c!\"bondopts\", .str c!\"QX\")]", "--vlanid=QX": "[(c!\"vlanid\", .str c!\"QX\")]", "--ipv6gateway=QX": "[(c!\"ipv6gateway\", .str c!\"QX\")]", "--teamslaves=QX": "[(c!\"teamslaves\", .pairs [(c!\"QX\", c!\"\")])]", "--teamconfig=QX": "[(c!\"teamconfig\", .str c!\"QX\")]", "--interfacename=QX": "[(c!\"interfacename\", .str c!\"QX\")]", "--bridgeslaves=QX": "[(c!\"bridgeslaves\", .str c!\"QX\")]", "--bridgeopts=QX": "REFUSED", "--no-activate": "REFUSED", "--bindto=mac": "REFUSED"}}, "308": {"cmd": "network", "cls": "F22_Network.cls F22_NetworkData.cls", "vs": [20000, 21000], "base": "--device=b --bridgeslaves=e", "bi": 1, "lines": ["--bridgeopts=stp=6", "--bridgeopts=stp", "--bridgeslaves=a,b"], "ok": true, "kind": "L", "d": "[(c!\"lineno\", .int 7), (c!\"bootProto\", .str c!\"dhcp\"), (c!\"dhcpclass\", .str c!\"\"), (c!\"device\", .str c!\"b\"), (c!\"essid\", .str c!\"\"), (c!\"ethtool\", .str c!\"\"), (c!\"gateway\", .str c!\"\"), (c!\"hostname\", .str c!\"\"), (c!\"ip\", .str c!\"\"), (c!\"mtu\", .str c!\"\"), (c!\"nameserver\", .str c!\"\"), (c!\"netmask\", .str c!\"\"), (c!\"nodns\", .bool false), (c!\"onboot\", .bool true), (c!\"wepkey\", .str c!\"\"), (c!\"notksdevice\", .bool false), (c!\"noipv4\", .bool false), (c!\"noipv6\", .bool false), (c!\"ipv6\", .str c!\"\"), (c!\"activate\", .none), (c!\"nodefroute\", .bool false), (c!\"wpakey\", .str c!\"\"), (c!\"bondslaves\", .str c!\"\"), (c!\"bondopts\", .str c!\"\"), (c!\"vlanid\", .str c!\"\"), (c!\"ipv6gateway\", .str c!\"\"), (c!\"teamslaves\", .list []), (c!\"teamconfig\", .str c!\"\"), (c!\"interfacename\", .str c!\"\"), (c!\"bridgeslaves\", .str c!\"e\"), (c!\"bridgeopts\", .str c!\"\")]", "bsets": "[]", "rows": {"--bridgeopts=stp=6": "[(c!\"bridgeopts\", .str c!\"stp=6\")]", "--bridgeopts=stp": "REFUSED", "--bridgeslaves=a,b": "[(c!\"bridgeslaves\", .str c!\"a,b\")]"}}, "309": {"cmd": "network", "cls": "F22_Network.cls F22_NetworkData.cls", "vs": [20000, 21000], "base": "--bootproto=static --ip=i", "bi": 2, "lines": ["--netmask=QX", "--gateway=QX"], "ok": true, "kind": "L", "d": "[(c!\"lineno\", .int 7), (c!\"bootProto\", .str c!\"static\"), (c!\"dhcpclass\", .str c!\"\"), (c!\"device\", .str c!\"\"), (c!\"essid\", .str c!\"\"), (c!\"ethtool\", .str c!\"\"), (c!\"gateway\", .str c!\"\"), (c!\"hostname\", .str c!\"\"), (c!\"ip\", .str c!\"i\"), (c!\"mtu\", .str c!\"\"), (c!\"nameserver\", .str c!\"\"), (c!\"netmask\", .str c!\"\"), (c!\"nodns\", .bool false), (c!\"onboot\", .bool true), (c!\"wepkey\", .str c!\"\"), (c!\"notksdevice\", .bool false), (c!\"noipv4\", .bool false), (c!\"noipv6\", .bool false), (c!\"ipv6\", .str c!\"\"), (c!\"activate\", .none), (c!\"nodefroute\", .bool false), (c!\"wpakey\", .str c!\"\"), (c!\"bondslaves\", .str c!\"\"), (c!\"bondopts\", .str c!\"\"), (c!\"vlanid\", .str c!\"\"), (c!\"ipv6gateway\", .str c!\"\"), (c!\"teamslaves\", .list []), (c!\"teamconfig\", .str c!\"\"), (c!\"interfacename\", .str c!\"\"), (c!\"bridgeslaves\", .str c!\"\"), (c!\"bridgeopts\", .str c!\"\")]", "bsets": "[]", "rows": {"--netmask=QX": "[(c!\"netmask\", .str c!\"QX\")]", "--gateway=QX": "[(c!\"gateway\", .str c!\"QX\")]"}}, "310": {"cmd": "network", "cls": "F22_Network.cls F22_NetworkData.cls", "vs": [20000, 21000], "base": "--device=t", "bi": 3, "lines": ["--teamslaves=a", "--bondslaves=a,b", "--vlanid=5"], "ok": true, "kind": "L", "d": "[(c!\"lineno\", .int 7), (c!\"bootProto\", .str c!\"dhcp\"), (c!\"dhcpclass\", .str c!\"\"), (c!\"device\", .str c!\"t\"), (c!\"essid\", .str c!\"\"), (c!\"ethtool\", .str c!\"\"), (c!\"gateway\", .str c!\"\"), (c!\"hostname\", .str c!\"\"), (c!\"ip\", .str c!\"\"), (c!\"mtu\", .str c!\"\"), (c!\"nameserver\", .str c!\"\"), (c!\"netmask\", .str c!\"\"), (c!\"nodns\", .bool false), (c!\"onboot\", .bool true), (c!\"wepkey\", .str c!\"\"), (c!\"notksdevice\", .bool false), (c!\"noipv4\", .bool false), (c!\"noipv6\", .bool false), (c!\"ipv6\", .str c!\"\"), (c!\"activate\", .none), (c!\"nodefroute\", .bool false), (c!\"wpakey\", .str c!\"\"), (c!\"bondslaves\", .str c!\"\"), (c!\"bondopts\", .str c!\"\"), (c!\"vlanid\", .str c!\"\"), (c!\"ipv6gateway\", .str c!\"\"), (c!\"teamslaves\", .list []), (c!\"teamconfig\", .str c!\"\"), (c!\"interfacename\", .str c!\"\"), (c!\"bridgeslaves\", .str c!\"\"), (c!\"bridgeopts\", .str c!\"\")]", "bsets": "[]", "rows": {"--teamslaves=a": "[(c!\"teamslaves\", .pairs [(c!\"a\", c!\"\")])]", "--bondslaves=a,b": "[(c!\"bondslaves\", .str c!\"a,b\")]", "--vlanid=5": "[(c!\"vlanid\", .str c!\"5\")]"}}, "311": {"cmd": "sshkey", "cls": "F22_SshKey.cls F22_SshKeyData.cls", "vs": [20000, 21000, 22000, 23000, 24000, 25000, 26000, 27000, 30000, 31000, 32000, 33000, 34000, 26100], "base": "--username=u k", "bi": 0, "lines": ["--username=QX"], "ok": true, "kind": "L", "d": "[(c!\"lineno\", .int 7), (c!\"username\", .str c!\"u\"), (c!\"key\", .str c!\"k\"), (c!\"sshkey\", .list [c!\"k\"])]", "bsets": "[]", "rows": {"--username=QX": "[(c!\"username\", .str c!\"QX\")]"}}, "312": {"cmd": "autopart", "cls": "F23_AutoPart.cls", "vs": [21000, 22000, 23000], "base": "", "bi": 0, "lines": ["--encrypted", "--passphrase=QX", "--escrowcert=QX", "--backuppassphrase", "--nolvm", "--type=lvm", "--type=btrfs", "--type=plain", "--type=partition", "--cipher=QX", "--type=thinp", "--fstype=QX", "--nohome", "--noboot", "--noswap", "--luks-version=QX", "--pbkdf=QX", "--pbkdf-memory=42", "--pbkdf-time=42", "--pbkdf-iterations=42"], "ok": true, "kind": "P", "d": "[(c!\"autopart\", .bool true), (c!\"encrypted\", .bool false), (c!\"passphrase\", .str c!\"\"), (c!\"escrowcert\", .str c!\"\"), (c!\"backuppassphrase\", .bool false), (c!\"lvm\", .bool true), (c!\"type\", .none), (c!\"cipher\", .str c!\"\"), (c!\"fstype\", .str c!\"\")]", "bsets": "[(c!\"autopart\", .bool true)]", "rows": {"--encrypted": "[(c!\"encrypted\", .bool true)]", "--passphrase=QX": "[(c!\"passphrase\", .str c!\"QX\")]", "--escrowcert=QX": "[(c!\"escrowcert\", .str c!\"QX\")]", "--backuppassphrase": "[(c!\"backuppassphrase\", .bool true)]", "--nolvm": "[(c!\"type\", .int 0)]", "--type=lvm": "[(c!\"type\", .int 2)]", "--type=btrfs": "[(c!\"type\", .int 1)]", "--type=plain": "[(c!\"type\", .int 0)]", "--type=partition": "[(c!\"type\", .int 0)]", "--cipher=QX": "[(c!\"cipher\", .str c!\"QX\")]", "--type=thinp": "[(c!\"type\", .int 3)]", "--fstype=QX": "[(c!\"fstype\", .str c!\"QX\")]", "--nohome": "REFUSED", "--noboot": "REFUSED", "--noswap": "REFUSED", "--luks-version=QX": "REFUSED", "--pbkdf=QX": "REFUSED", "--pbkdf-memory=42": "REFUSED", "--pbkdf-time=42": "REFUSED", "--pbkdf-iterations=42": "REFUSED"}}, "313": {"cmd": "btrfs", "cls": "F23_BTRFS.cls F23_BTRFSData.cls", "vs": [21000, 22000, 23000, 24000, 25000, 26000, 27000, 30000, 31000, 32000, 33000, 34000], "base": "/x a", "bi": 0, "lines": ["--noformat", "--useexisting", "--label=QX", "--data=raid0", "--data=0", "--data=raid1", "--data=1", "--data=raid10", "--data=10", "--data=single", "--metadata=raid0", "--metadata=0", "--metadata=raid1", "--metadata=1", "--metadata=raid10", "--metadata=10", "--metadata=single", "--subvol", "--parent=QX", "--name=QX", "--mkfsoptions=QX"], "ok": true, "kind": "L", "d": "[(c!\"lineno\", .int 7), (c!\"format\", .bool true), (c!\"preexist\", .bool false), (c!\"label\", .str c!\"\"), (c!\"mountpoint\", .str c!\"/x\"), (c!\"devices\", .list [c!\"a\"]), (c!\"dataLevel\", .none), (c!\"metaDataLevel\", .none), (c!\"subvol\", .bool false), (c!\"parent\", .str c!\"\"), (c!\"name\", .str c!\"\"), (c!\"mkfsopts\", .str c!\"\")]", "bsets": "[]", "rows": {"--noformat": "[(c!\"format\", .bool false), (c!\"preexist\", .bool true)]", "--useexisting": "[(c!\"format\", .bool false), (c!\"preexist\", .bool true)]", "--label=QX": "[(c!\"label\", .str c!\"QX\")]", "--data=raid0": "[(c!\"dataLevel\", .str c!\"raid0\")]", "--data=0": "[(c!\"dataLevel\", .str c!\"raid0\")]", "--data=raid1": "[(c!\"dataLevel\", .str c!\"raid1\")]", "--data=1": "[(c!\"dataLevel\", .str c!\"raid1\")]", "--data=raid10": "[(c!\"dataLevel\", .str c!\"raid10\")]", "--data=10": "[(c!\"dataLevel\", .str c!\"raid10\")]", "--data=single": "[(c!\"dataLevel\", .str c!\"single\")]", "--metadata=raid0": "[(c!\"metaDataLevel\", .str c!\"raid0\")]", "--metadata=0": "[(c!\"metaDataLevel\", .str c!\"raid0\")]", "--metadata=raid1": "[(c!\"metaDataLevel\", .str c!\"raid1\")]", "--metadata=1": "[(c!\"metaDataLevel\", .str c!\"raid1\")]", "--metadata=raid10": "[(c!\"metaDataLevel\", .str c!\"raid10\")]", "--metadata=10": "[(c!\"metaDataLevel\", .str c!\"raid10\")]", "--metadata=single": "[(c!\"metaDataLevel\", .str c!\"single\")]", "--subvol": "REFUSED", "--parent=QX": "[(c!\"parent\", .str c!\"QX\")]", "--name=QX": "[(c!\"name\", .str c!\"QX\")]", "--mkfsoptions=QX": "[(c!\"mkfsopts\", .str c!\"QX\")]"}}, "314": {"cmd": "btrfs", "cls": "F23_BTRFS.cls F23_BTRFSData.cls", "vs": [21000, 22000, 23000, 24000, 25000, 26000, 27000, 30000, 31000, 32000, 33000, 34000], "base": "/x --subvol --name=s LABEL=l", "bi": 1, "lines": ["--parent=QX"], "ok": true, "kind": "L", "d": "[(c!\"lineno\", .int 7), (c!\"format\", .bool true), (c!\"preexist\", .bool false), (c!\"label\", .str c!\"\"), (c!\"mountpoint\", .str c!\"/x\"), (c!\"devices\", .list [c!\"LABEL=l\"]), (c!\"dataLevel\", .none), (c!\"metaDataLevel\", .none), (c!\"subvol\", .bool true), (c!\"parent\", .str c!\"\"), (c!\"name\", .str c!\"s\"), (c!\"mkfsopts\", .str c!\"\")]", "bsets": "[]", "rows": {"--parent=QX": "[(c!\"parent\", .str c!\"QX\")]"}}, "315": {"cmd": "btrfs", "cls": "F23_BTRFS.cls F23_BTRFSData.cls", "vs": [21000, 22000, 23000, 24000, 25000, 26000, 27000, 30000, 31000, 32000, 33000, 34000], "base": "/x --noformat LABEL=l", "bi": 2, "lines": ["--useexisting"], "ok": true, "kind": "L", "d": "[(c!\"lineno\", .int 7), (c!\"format\", .bool false), (c!\"preexist\", .bool true), (c!\"label\", .str c!\"\"), (c!\"mountpoint\", .str c!\"/x\"), (c!\"devices\", .list [c!\"LABEL=l\"]), (c!\"dataLevel\", .none), (c!\"metaDataLevel\", .none), (c!\"subvol\", .bool false), (c!\"parent\", .str c!\"\"), (c!\"name\", .str c!\"\"), (c!\"mkfsopts\", .str c!\"\")]", "bsets": "[]", "rows": {"--useexisting": "[]"}}, "316": {"cmd": "halt", "cls": "F23_Reboot.cls", "vs": [21000, 22000, 23000, 24000, 25000, 26000, 27000, 30000, 31000, 32000, 33000, 34000, 26100], "base": "", "bi": 0, "lines": ["--eject", "--kexec"], "ok": true, "kind": "P", "d": "[(c!\"action\", .int 0), (c!\"eject\", .bool false), (c!\"kexec\", .bool false)]", "bsets": "[(c!\"action\", .int 0)]", "rows": {"--eject": "[(c!\"eject\", .bool true)]", "--kexec": "[(c!\"kexec\", .bool true)]"}}, "317": {"cmd": "logvol", "cls": "F23_LogVol.cls F23_LogVolData.cls", "vs": [21000, 22000, 23000, 24000, 25000, 26000], "base": "/x --name=n --vgname=g --size=1", "bi": 0, "lines": ["--fstype=QX", "--grow", "--maxsize=42", "--name=QX", "--noformat", "--percent=42", "--recommended", "--size=42", "--useexisting", "--vgname=QX", "--fsoptions=QX", "--bytes-per-inode=QX", "--fsprofile=QX", "--encrypted", "--passphrase=QX", "--escrowcert=QX", "--backuppassphrase", "--label=QX", "--resize", "--hibernation", "--cipher=QX", "--thinpool", "--thin", "--poolname=QX", "--chunksize=42", "--metadatasize=42", "--profile=QX", "--cachesize=42", "--cachemode=QX", "--cachepvs=QX", "--mkfsoptions=QX", "--luks-version=QX", "--pbkdf=QX", "--pbkdf-memory=42", "--pbkdf-time=42", "--pbkdf-iterations=42", "--bytes-per-inode=42"], "ok": true, "kind": "L", "d": "[(c!\"lineno\", .int 7), (c!\"fstype\", .str c!\"\"), (c!\"grow\", .bool false), (c!\"maxSizeMB\", .int 0), (c!\"name\", .str c!\"n\"), (c!\"format\", .bool true), (c!\"percent\", .int 0), (c!\"recommended\", .bool false), (c!\"size\", .int 1), (c!\"preexist\", .bool false), (c!\"vgname\", .str c!\"g\"), (c!\"mountpoint\", .str c!\"/x\"), (c!\"fsopts\", .str c!\"\"), (c!\"fsprofile\", .str c!\"\"), (c!\"encrypted\", .bool false), (c!\"passphrase\", .str c!\"\"), (c!\"escrowcert\", .str c!\"\"), (c!\"backuppassphrase\", .bool false), (c!\"label\", .str c!\"\"), (c!\"resize\", .bool false), (c!\"hibernation\", .bool false), (c!\"cipher\", .str c!\"\"), (c!\"thin_pool\", .bool false), (c!\"thin_volume\", .bool false), (c!\"pool_name\", .str c!\"\"), (c!\"chunk_size\", .none), (c!\"metadata_size\", .none), (c!\"profile\", .str c!\"\"), (c!\"cache_size\", .int 0), (c!\"cache_mode\", .str c!\"\"), (c!\"cache_pvs\", .list []), (c!\"mkfsopts\", .str c!\"\"), (c!\"mntpoint\", .list [c!\"/x\"])]", "bsets": "[]", "rows": {"--fstype=QX": "[(c!\"fstype\", .str c!\"QX\")]", "--grow": "[(c!\"grow\", .bool true)]", "--maxsize=42": "[(c!\"maxSizeMB\", .int 42)]", "--name=QX": "[(c!\"name\", .str c!\"QX\")]", "--noformat": "[(c!\"format\", .bool false), (c!\"preexist\", .bool true)]", "--percent=42": "REFUSED", "--recommended": "[(c!\"recommended\", .bool true)]", "--size=42": "[(c!\"size\", .int 42)]", "--useexisting": "[(c!\"preexist\", .bool true)]", "--vgname=QX": "[(c!\"vgname\", .str c!\"QX\")]", "--fsoptions=QX": "[(c!\"fsopts\", .str c!\"QX\")]", "--bytes-per-inode=QX": "REFUSED", "--fsprofile=QX": "[(c!\"fsprofile\", .str c!\"QX\")]", "--encrypted": "[(c!\"encrypted\", .bool true)]", "--passphrase=QX": "[(c!\"passphrase\", .str c!\"QX\")]", "--escrowcert=QX": "[(c!\"escrowcert\", .str c!\"QX\")]", "--backuppassphrase": "[(c!\"backuppassphrase\", .bool true)]", "--label=QX": "[(c!\"label\", .str c!\"QX\")]", "--resize": "REFUSED", "--hibernation": "[(c!\"hibernation\", .bool true)]", "--cipher=QX": "[(c!\"cipher\", .str c!\"QX\")]", "--thinpool": "[(c!\"thin_pool\", .bool true)]", "--thin": "REFUSED", "--poolname=QX": "[(c!\"pool_name\", .str c!\"QX\")]", "--chunksize=42": "REFUSED", "--metadatasize=42": "REFUSED", "--profile=QX": "[(c!\"profile\", .str c!\"QX\")]", "--cachesize=42": "REFUSED", "--cachemode=QX": "REFUSED", "--cachepvs=QX": "REFUSED", "--mkfsoptions=QX": "[(c!\"mkfsopts\", .str c!\"QX\")]", "--luks-version=QX": "REFUSED", "--pbkdf=QX": "REFUSED", "--pbkdf-memory=42": "REFUSED", "--pbkdf-time=42": "REFUSED", "--pbkdf-iterations=42": "REFUSED", "--bytes-per-inode=42": "REFUSED"}}, "318": {"cmd": "logvol", "cls": "F23_LogVol.cls F23_LogVolData.cls", "vs": [21000, 22000, 23000, 24000, 25000, 26000], "base": "/x --name=n --vgname=g --useexisting", "bi": 1, "lines": ["--size=42", "--resize", "--noformat", "--fstype=ext4"], "ok": true, "kind": "L", "d": "[(c!\"lineno\", .int 7), (c!\"fstype\", .str c!\"\"), (c!\"grow\", .bool false), (c!\"maxSizeMB\", .int 0), (c!\"name\", .str c!\"n\"), (c!\"format\", .bool true), (c!\"percent\", .int 0), (c!\"recommended\", .bool false), (c!\"size\", .none), (c!\"preexist\", .bool true), (c!\"vgname\", .str c!\"g\"), (c!\"mountpoint\", .str c!\"/x\"), (c!\"fsopts\", .str c!\"\"), (c!\"fsprofile\", .str c!\"\"), (c!\"encrypted\", .bool false), (c!\"passphrase\", .str c!\"\"), (c!\"escrowcert\", .str c!\"\"), (c!\"backuppassphrase\", .bool false), (c!\"label\", .str c!\"\"), (c!\"resize\", .bool false), (c!\"hibernation\", .bool false), (c!\"cipher\", .str c!\"\"), (c!\"thin_pool\", .bool false), (c!\"thin_volume\", .bool false), (c!\"pool_name\", .str c!\"\"), (c!\"chunk_size\", .none), (c!\"metadata_size\", .none), (c!\"profile\", .str c!\"\"), (c!\"cache_size\", .int 0), (c!\"cache_mode\", .str c!\"\"), (c!\"cache_pvs\", .list []), (c!\"mkfsopts\", .str c!\"\"), (c!\"mntpoint\", .list [c!\"/x\"])]", "bsets": "[]", "rows": {"--size=42": "[(c!\"size\", .int 42)]", "--resize": "REFUSED", "--noformat": "[(c!\"format\", .bool false)]", "--fstype=ext4": "[(c!\"fstype\", .str c!\"ext4\")]"}}, "319": {"cmd": "logvol", "cls": "F23_LogVol.cls F23_LogVolData.cls", "vs": [21000, 22000, 23000, 24000, 25000, 26000], "base": "/x --name=n --vgname=g", "bi": 2, "lines": ["--percent=42", "--useexisting", "--noformat"], "ok": false}, "320": {"cmd": "logvol", "cls": "F23_LogVol.cls F23_LogVolData.cls", "vs": [21000, 22000, 23000, 24000, 25000, 26000], "base": "/x --name=n --vgname=g --size=1 --poolname=p", "bi": 3, "lines": ["--thin", "--thinpool", "--label=QX"], "ok": true, "kind": "L", "d": "[(c!\"lineno\", .int 7), (c!\"fstype\", .str c!\"\"), (c!\"grow\", .bool false), (c!\"maxSizeMB\", .int 0), (c!\"name\", .str c!\"n\"), (c!\"format\", .bool true), (c!\"percent\", .int 0), (c!\"recommended\", .bool false), (c!\"size\", .int 1), (c!\"preexist\", .bool false), (c!\"vgname\", .str c!\"g\"), (c!\"mountpoint\", .str c!\"/x\"), (c!\"fsopts\", .str c!\"\"), (c!\"fsprofile\", .str c!\"\"), (c!\"encrypted\", .bool false), (c!\"passphrase\", .str c!\"\"), (c!\"escrowcert\", .str c!\"\"), (c!\"backuppassphrase\", .bool false), (c!\"label\", .str c!\"\"), (c!\"resize\", .bool false), (c!\"hibernation\", .bool false), (c!\"cipher\", .str c!\"\"), (c!\"thin_pool\", .bool false), (c!\"thin_volume\", .bool false), (c!\"pool_name\", .str c!\"p\"), (c!\"chunk_size\", .none), (c!\"metadata_size\", .none), (c!\"profile\", .str c!\"\"), (c!\"cache_size\", .int 0), (c!\"cache_mode\", .str c!\"\"), (c!\"cache_pvs\", .list []), (c!\"mkfsopts\", .str c!\"\"), (c!\"mntpoint\", .list [c!\"/x\"])]", "bsets": "[]", "rows": {"--thin": "[(c!\"thin_volume\", .bool true)]", "--thinpool": "[(c!\"thin_pool\", .bool true)]", "--label=QX": "[(c!\"label\", .str c!\"QX\")]"}}, "321": {"cmd": "logvol", "cls": "F23_LogVol.cls F23_LogVolData.cls", "vs": [21000, 22000, 23000, 24000, 25000, 26000], "base": "none --name=n --vgname=g --size=1 --thinpool", "bi": 4, "lines": ["--chunksize=42", "--metadatasize=42", "--profile=QX", "--grow"], "ok": true, "kind": "L", "d": "[(c!\"lineno\", .int 7), (c!\"fstype\", .str c!\"\"), (c!\"grow\", .bool false), (c!\"maxSizeMB\", .int 0), (c!\"name\", .str c!\"n\"), (c!\"format\", .bool true), (c!\"percent\", .int 0), (c!\"recommended\", .bool false), (c!\"size\", .int 1), (c!\"preexist\", .bool false), (c!\"vgname\", .str c!\"g\"), (c!\"mountpoint\", .str c!\"none\"), (c!\"fsopts\", .str c!\"\"), (c!\"fsprofile\", .str c!\"\"), (c!\"encrypted\", .bool false), (c!\"passphrase\", .str c!\"\"), (c!\"escrowcert\", .str c!\"\"), (c!\"backuppassphrase\", .bool false), (c!\"label\", .str c!\"\"), (c!\"resize\", .bool false), (c!\"hibernation\", .bool false), (c!\"cipher\", .str c!\"\"), (c!\"thin_pool\", .bool true), (c!\"thin_volume\", .bool false), (c!\"pool_name\", .str c!\"\"), (c!\"chunk_size\", .none), (c!\"metadata_size\", .none), (c!\"profile\", .str c!\"\"), (c!\"cache_size\", .int 0), (c!\"cache_mode\", .str c!\"\"), (c!\"cache_pvs\", .list []), (c!\"mkfsopts\", .str c!\"\"), (c!\"mntpoint\", .list [c!\"none\"])]", "bsets": "[]", "rows": {"--chunksize=42": "[(c!\"chunk_size\", .int 42)]", "--metadatasize=42": "[(c!\"metadata_size\", .int 42)]", "--profile=QX": "[(c!\"profile\", .str c!\"QX\")]", "--grow": "[(c!\"grow\", .bool true)]"}}, "322": {"cmd": "logvol", "cls": "F23_LogVol.cls F23_LogVolData.cls", "vs": [21000, 22000, 23000, 24000, 25000, 26000], "base": "/x --name=n --vgname=g --size=1 --cachepvs=a --cachesize=5", "bi": 5, "lines": ["--cachemode=writeback", "--cachemode=writethrough"], "ok": true, "kind": "L", "d": "[(c!\"lineno\", .int 7), (c!\"fstype\", .str c!\"\"), (c!\"grow\", .bool false), (c!\"maxSizeMB\", .int 0), (c!\"name\", .str c!\"n\"), (c!\"format\", .bool true), (c!\"percent\", .int 0), (c!\"recommended\", .bool false), (c!\"size\", .int 1), (c!\"preexist\", .bool false), (c!\"vgname\", .str c!\"g\"), (c!\"mountpoint\", .str c!\"/x\"), (c!\"fsopts\", .str c!\"\"), (c!\"fsprofile\", .str c!\"\"), (c!\"encrypted\", .bool false), (c!\"passphrase\", .str c!\"\"), (c!\"escrowcert\", .str c!\"\"), (c!\"backuppassphrase\", .bool false), (c!\"label\", .str c!\"\"), (c!\"resize\", .bool false), (c!\"hibernation\", .bool false), (c!\"cipher\", .str c!\"\"), (c!\"thin_pool\", .bool false), (c!\"thin_volume\", .bool false), (c!\"pool_name\", .str c!\"\"), (c!\"chunk_size\", .none), (c!\"metadata_size\", .none), (c!\"profile\", .str c!\"\"), (c!\"cache_size\", .int 5), (c!\"cache_mode\", .str c!\"\"), (c!\"cache_pvs\", .list [c!\"a\"]), (c!\"mkfsopts\", .str c!\"\"), (c!\"mntpoint\", .list [c!\"/x\"])]", "bsets": "[]", "rows": {"--cachemode=writeback": "[(c!\"cache_mode\", .str c!\"writeback\")]", "--cachemode=writethrough": "[(c!\"cache_mode\", .str c!\"writethrough\")]"}}, "323": {"cmd": "part", "cls": "F23_Partition.cls F23_PartData.cls", "vs": [21000, 22000, 23000, 24000, 25000, 26000], "base": "/x --size=1", "bi": 0, "lines": ["--active", "--asprimary", "--start=42", "--end=42", "--fstype=QX", "--type=QX", "--grow", "--maxsize=42", "--noformat", "--onbiosdisk=QX", "--ondisk=QX", "--ondrive=QX", "--onpart=QX", "--usepart=QX", "--recommended", "--size=42", "--fsoptions=QX", "--label=QX", "--bytes-per-inode=QX", "--fsprofile=QX", "--encrypted", "--passphrase=QX", "--start=QX", "--end=QX", "--escrowcert=QX", "--backuppassphrase", "--resize", "--hibernation", "--cipher=QX", "--mkfsoptions=QX", "--luks-version=QX", "--pbkdf=QX", "--pbkdf-memory=42", "--pbkdf-time=42", "--pbkdf-iterations=42", "--bytes-per-inode=42"], "ok": true, "kind": "L", "d": "[(c!\"lineno\", .int 7), (c!\"active\", .bool false), (c!\"primOnly\", .bool false), (c!\"fstype\", .str c!\"\"), (c!\"grow\", .bool false), (c!\"maxSizeMB\", .int 0), (c!\"format\", .bool true), (c!\"onbiosdisk\", .str c!\"\"), (c!\"disk\", .str c!\"\"), (c!\"onPart\", .str c!\"\"), (c!\"recommended\", .bool false), (c!\"size\", .int 1), (c!\"mountpoint\", .str c!\"/x\"), (c!\"fsopts\", .str c!\"\"), (c!\"label\", .str c!\"\"), (c!\"fsprofile\", .str c!\"\"), (c!\"encrypted\", .bool false), (c!\"passphrase\", .str c!\"\"), (c!\"escrowcert\", .str c!\"\"), (c!\"backuppassphrase\", .bool false), (c!\"resize\", .bool false), (c!\"hibernation\", .bool false), (c!\"cipher\", .str c!\"\"), (c!\"mkfsopts\", .str c!\"\"), (c!\"mntpoint\", .list [c!\"/x\"])]", "bsets": "[]", "rows": {"--active": "[(c!\"active\", .bool true)]", "--asprimary": "[(c!\"primOnly\", .bool true)]", "--start=42": "REFUSED", "--end=42": "REFUSED", "--fstype=QX": "[(c!\"fstype\", .str c!\"QX\")]", "--type=QX": "[(c!\"fstype\", .str c!\"QX\")]", "--grow": "[(c!\"grow\", .bool true)]", "--maxsize=42": "[(c!\"maxSizeMB\", .int 42)]", "--noformat": "[(c!\"format\", .bool false)]", "--onbiosdisk=QX": "[(c!\"onbiosdisk\", .str c!\"QX\")]", "--ondisk=QX": "[(c!\"disk\", .str c!\"QX\")]", "--ondrive=QX": "[(c!\"disk\", .str c!\"QX\")]", "--onpart=QX": "[(c!\"onPart\", .str c!\"QX\")]", "--usepart=QX": "[(c!\"onPart\", .str c!\"QX\")]", "--recommended": "[(c!\"recommended\", .bool true)]", "--size=42": "[(c!\"size\", .int 42)]", "--fsoptions=QX": "[(c!\"fsopts\", .str c!\"QX\")]", "--label=QX": "[(c!\"label\", .str c!\"QX\")]", "--bytes-per-inode=QX": "REFUSED", "--fsprofile=QX": "[(c!\"fsprofile\", .str c!\"QX\")]", "--encrypted": "[(c!\"encrypted\", .bool true)]", "--passphrase=QX": "[(c!\"passphrase\", .str c!\"QX\")]", "--start=QX": "REFUSED", "--end=QX": "REFUSED", "--escrowcert=QX": "[(c!\"escrowcert\", .str c!\"QX\")]", "--backuppassphrase": "[(c!\"backuppassphrase\", .bool true)]", "--resize": "REFUSED", "--hibernation": "[(c!\"hibernation\", .bool true)]", "--cipher=QX": "[(c!\"cipher\", .str c!\"QX\")]", "--mkfsoptions=QX": "[(c!\"mkfsopts\", .str c!\"QX\")]", "--luks-version=QX": "REFUSED", "--pbkdf=QX": "REFUSED", "--pbkdf-memory=42": "REFUSED", "--pbkdf-time=42": "REFUSED", "--pbkdf-iterations=42": "REFUSED", "--bytes-per-inode=42": "REFUSED"}}, "324": {"cmd": "part", "cls": "F23_Partition.cls F23_PartData.cls", "vs": [21000, 22000, 23000, 24000, 25000, 26000], "base": "/x --onpart=sda1 --size=1", "bi": 1, "lines": ["--resize", "--noformat"], "ok": true, "kind": "L", "d": "[(c!\"lineno\", .int 7), (c!\"active\", .bool false), (c!\"primOnly\", .bool false), (c!\"fstype\", .str c!\"\"), (c!\"grow\", .bool false), (c!\"maxSizeMB\", .int 0), (c!\"format\", .bool true), (c!\"onbiosdisk\", .str c!\"\"), (c!\"disk\", .str c!\"\"), (c!\"onPart\", .str c!\"sda1\"), (c!\"recommended\", .bool false), (c!\"size\", .int 1), (c!\"mountpoint\", .str c!\"/x\"), (c!\"fsopts\", .str c!\"\"), (c!\"label\", .str c!\"\"), (c!\"fsprofile\", .str c!\"\"), (c!\"encrypted\", .bool false), (c!\"passphrase\", .str c!\"\"), (c!\"escrowcert\", .str c!\"\"), (c!\"backuppassphrase\", .bool false), (c!\"resize\", .bool false), (c!\"hibernation\", .bool false), (c!\"cipher\", .str c!\"\"), (c!\"mkfsopts\", .str c!\"\"), (c!\"mntpoint\", .list [c!\"/x\"])]", "bsets": "[]", "rows": {"--resize": "[(c!\"resize\", .bool true)]", "--noformat": "[(c!\"format\", .bool false)]"}}, "325": {"cmd": "partition", "cls": "F23_Partition.cls F23_PartData.cls", "vs": [21000, 22000, 23000, 24000, 25000, 26000], "base": "/x --size=1", "bi": 0, "lines": ["--active", "--asprimary", "--start=42", "--end=42", "--fstype=QX", "--type=QX", "--grow", "--maxsize=42", "--noformat", "--onbiosdisk=QX", "--ondisk=QX", "--ondrive=QX", "--onpart=QX", "--usepart=QX", "--recommended", "--size=42", "--fsoptions=QX", "--label=QX", "--bytes-per-inode=QX", "--fsprofile=QX", "--encrypted", "--passphrase=QX", "--start=QX", "--end=QX", "--escrowcert=QX", "--backuppassphrase", "--resize", "--hibernation", "--cipher=QX", "--mkfsoptions=QX", "--luks-version=QX", "--pbkdf=QX", "--pbkdf-memory=42", "--pbkdf-time=42", "--pbkdf-iterations=42", "--bytes-per-inode=42"], "ok": true, "kind": "L", "d": "[(c!\"lineno\", .int 7), (c!\"active\", .bool false), (c!\"primOnly\", .bool false), (c!\"fstype\", .str c!\"\"), (c!\"grow\", .bool false), (c!\"maxSizeMB\", .int 0), (c!\"format\", .bool true), (c!\"onbiosdisk\", .str c!\"\"), (c!\"disk\", .str c!\"\"), (c!\"onPart\", .str c!\"\"), (c!\"recommended\", .bool false), (c!\"size\", .int 1), (c!\"mountpoint\", .str c!\"/x\"), (c!\"fsopts\", .str c!\"\"), (c!\"label\", .str c!\"\"), (c!\"fsprofile\", .str c!\"\"), (c!\"encrypted\", .bool false), (c!\"passphrase\", .str c!\"\"), (c!\"escrowcert\", .str c!\"\"), (c!\"backuppassphrase\", .bool false), (c!\"resize\", .bool false), (c!\"hibernation\", .bool false), (c!\"cipher\", .str c!\"\"), (c!\"mkfsopts\", .str c!\"\"), (c!\"mntpoint\", .list [c!\"/x\"])]", "bsets": "[]", "rows": {"--active": "[(c!\"active\", .bool true)]", "--asprimary": "[(c!\"primOnly\", .bool true)]", "--start=42": "REFUSED", "--end=42": "REFUSED", "--fstype=QX": "[(c!\"fstype\", .str c!\"QX\")]", "--type=QX": "[(c!\"fstype\", .str c!\"QX\")]", "--grow": "[(c!\"grow\", .bool true)]", "--maxsize=42": "[(c!\"maxSizeMB\", .int 42)]", "--noformat": "[(c!\"format\", .bool false)]", "--onbiosdisk=QX": "[(c!\"onbiosdisk\", .str c!\"QX\")]", "--ondisk=QX": "[(c!\"disk\", .str c!\"QX\")]", "--ondrive=QX": "[(c!\"disk\", .str c!\"QX\")]", "--onpart=QX": "[(c!\"onPart\", .str c!\"QX\")]", "--usepart=QX": "[(c!\"onPart\", .str c!\"QX\")]", "--recommended": "[(c!\"recommended\", .bool true)]", "--size=42": "[(c!\"size\", .int 42)]", "--fsoptions=QX": "[(c!\"fsopts\", .str c!\"QX\")]", "--label=QX": "[(c!\"label\", .str c!\"QX\")]", "--bytes-per-inode=QX": "REFUSED", "--fsprofile=QX": "[(c!\"fsprofile\", .str c!\"QX\")]", "--encrypted": "[(c!\"encrypted\", .bool true)]", "--passphrase=QX": "[(c!\"passphrase\", .str c!\"QX\")]", "--start=QX": "REFUSED", "--end=QX": "REFUSED", "--escrowcert=QX": "[(c!\"escrowcert\", .str c!\"QX\")]", "--backuppassphrase": "[(c!\"backuppassphrase\", .bool true)]", "--resize": "REFUSED", "--hibernation": "[(c!\"hibernation\", .bool true)]", "--cipher=QX": "[(c!\"cipher\", .str c!\"QX\")]", "--mkfsoptions=QX": "[(c!\"mkfsopts\", .str c!\"QX\")]", "--luks-version=QX": "REFUSED", "--pbkdf=QX": "REFUSED", "--pbkdf-memory=42": "REFUSED", "--pbkdf-time=42": "REFUSED", "--pbkdf-iterations=42": "REFUSED", "--bytes-per-inode=42": "REFUSED"}}, "326": {"cmd": "partition", "cls": "F23_Partition.cls F23_PartData.cls", "vs": [21000, 22000, 23000, 24000, 25000, 26000], "base": "/x --onpart=sda1 --size=1", "bi": 1, "lines": ["--resize", "--noformat"], "ok": true, "kind": "L", "d": "[(c!\"lineno\", .int 7), (c!\"active\", .bool false), (c!\"primOnly\", .bool false), (c!\"fstype\", .str c!\"\"), (c!\"grow\", .bool false), (c!\"maxSizeMB\", .int 0), (c!\"format\", .bool true), (c!\"onbiosdisk\", .str c!\"\"), (c!\"disk\", .str c!\"\"), (c!\"onPart\", .str c!\"sda1\"), (c!\"recommended\", .bool false), (c!\"size\", .int 1), (c!\"mountpoint\", .str c!\"/x\"), (c!\"fsopts\", .str c!\"\"), (c!\"label\", .str c!\"\"), (c!\"fsprofile\", .str c!\"\"), (c!\"encrypted\", .bool false), (c!\"passphrase\", .str c!\"\"), (c!\"escrowcert\", .str c!\"\"), (c!\"backuppassphrase\", .bool false), (c!\"resize\", .bool false), (c!\"hibernation\", .bool false), (c!\"cipher\", .str c!\"\"), (c!\"mkfsopts\", .str c!\"\"), (c!\"mntpoint\", .list [c!\"/x\"])]", "bsets": "[]", "rows": {"--resize": "[(c!\"resize\", .bool true)]", "--noformat": "[(c!\"format\", .bool false)]"}}, "327": {"cmd": "poweroff", "cls": "F23_Reboot.cls", "vs": [21000, 22000, 23000, 24000, 25000, 26000, 27000, 30000, 31000, 32000, 33000, 34000, 26100], "base": "", "bi": 0, "lines": ["--eject", "--kexec"], "ok": true, "kind": "P", "d": "[(c!\"action\", .int 2), (c!\"eject\", .bool false), (c!\"kexec\", .bool false)]", "bsets": "[(c!\"action\", .int 2)]", "rows": {"--eject": "[(c!\"eject\", .bool true)]", "--kexec": "[(c!\"kexec\", .bool true)]"}}, "328": {"cmd": "raid", "cls": "F23_Raid.cls F23_RaidData.cls", "vs": [21000, 22000], "base": "/x --device=1 --level=RAID1 raid.1 raid.2", "bi": 0, "lines": ["--device=QX", "--fstype=QX", "--level=RAID0", "--level=0", "--level=RAID1", "--level=1", "--level=RAID5", "--level=5", "--level=RAID6", "--level=6", "--level=RAID10", "--level=10", "--noformat", "--spares=42", "--useexisting", "--fsoptions=QX", "--bytes-per-inode=QX", "--fsprofile=QX", "--encrypted", "--passphrase=QX", "--escrowcert=QX", "--backuppassphrase", "--level=RAID4", "--level=4", "--label=QX", "--cipher=QX", "--mkfsoptions=QX", "--chunksize=42", "--luks-version=QX", "--pbkdf=QX", "--pbkdf-memory=42", "--pbkdf-time=42", "--pbkdf-iterations=42", "--bytes-per-inode=42"], "ok": true, "kind": "L", "d": "[(c!\"lineno\", .int 7), (c!\"device\", .str c!\"1\"), (c!\"fstype\", .str c!\"\"), (c!\"level\", .str c!\"RAID1\"), (c!\"format\", .bool true), (c!\"spares\", .int 0), (c!\"preexist\", .bool false), (c!\"mountpoint\", .str c!\"/x\"), (c!\"members\", .list [c!\"raid.1\", c!\"raid.2\"]), (c!\"fsopts\", .str c!\"\"), (c!\"fsprofile\", .str c!\"\"), (c!\"encrypted\", .bool false), (c!\"passphrase\", .str c!\"\"), (c!\"escrowcert\", .str c!\"\"), (c!\"backuppassphrase\", .bool false), (c!\"label\", .str c!\"\"), (c!\"cipher\", .str c!\"\"), (c!\"mkfsopts\", .str c!\"\"), (c!\"mntpoint\", .list [c!\"/x\"]), (c!\"partitions\", .list [c!\"raid.1\", c!\"raid.2\"])]", "bsets": "[]", "rows": {"--device=QX": "[(c!\"device\", .str c!\"QX\")]", "--fstype=QX": "[(c!\"fstype\", .str c!\"QX\")]", "--level=RAID0": "[(c!\"level\", .str c!\"RAID0\")]", "--level=0": "[(c!\"level\", .str c!\"RAID0\")]", "--level=RAID1": "[]", "--level=1": "[]", "--level=RAID5": "[(c!\"level\", .str c!\"RAID5\")]", "--level=5": "[(c!\"level\", .str c!\"RAID5\")]", "--level=RAID6": "[(c!\"level\", .str c!\"RAID6\")]", "--level=6": "[(c!\"level\", .str c!\"RAID6\")]", "--level=RAID10": "[(c!\"level\", .str c!\"RAID10\")]", "--level=10": "[(c!\"level\", .str c!\"RAID10\")]", "--noformat": "REFUSED", "--spares=42": "[(c!\"spares\", .int 42)]", "--useexisting": "REFUSED", "--fsoptions=QX": "[(c!\"fsopts\", .str c!\"QX\")]", "--bytes-per-inode=QX": "REFUSED", "--fsprofile=QX": "[(c!\"fsprofile\", .str c!\"QX\")]", "--encrypted": "[(c!\"encrypted\", .bool true)]", "--passphrase=QX": "[(c!\"passphrase\", .str c!\"QX\")]", "--escrowcert=QX": "[(c!\"escrowcert\", .str c!\"QX\")]", "--backuppassphrase": "[(c!\"backuppassphrase\", .bool true)]", "--level=RAID4": "[(c!\"level\", .str c!\"RAID4\")]", "--level=4": "[(c!\"level\", .str c!\"RAID4\")]", "--label=QX": "[(c!\"label\", .str c!\"QX\")]", "--cipher=QX": "[(c!\"cipher\", .str c!\"QX\")]", "--mkfsoptions=QX": "[(c!\"mkfsopts\", .str c!\"QX\")]", "--chunksize=42": "REFUSED", "--luks-version=QX": "REFUSED", "--pbkdf=QX": "REFUSED", "--pbkdf-memory=42": "REFUSED", "--pbkdf-time=42": "REFUSED", "--pbkdf-iterations=42": "REFUSED", "--bytes-per-inode=42": "REFUSED"}}, "329": {"cmd": "raid", "cls": "F23_Raid.cls F23_RaidData.cls", "vs": [21000, 22000], "base": "/x --device=1 --noformat", "bi": 1, "lines": ["--fstype=ext4", "--label=QX"], "ok": true, "kind": "L", "d": "[(c!\"lineno\", .int 7), (c!\"device\", .str c!\"1\"), (c!\"fstype\", .str c!\"\"), (c!\"level\", .str c!\"\"), (c!\"format\", .bool false), (c!\"spares\", .int 0), (c!\"preexist\", .bool true), (c!\"mountpoint\", .str c!\"/x\"), (c!\"members\", .list []), (c!\"fsopts\", .str c!\"\"), (c!\"fsprofile\", .str c!\"\"), (c!\"encrypted\", .bool false), (c!\"passphrase\", .str c!\"\"), (c!\"escrowcert\", .str c!\"\"), (c!\"backuppassphrase\", .bool false), (c!\"label\", .str c!\"\"), (c!\"cipher\", .str c!\"\"), (c!\"mkfsopts\", .str c!\"\"), (c!\"mntpoint\", .list [c!\"/x\"]), (c!\"partitions\", .list [])]", "bsets": "[]", "rows": {"--fstype=ext4": "[(c!\"fstype\", .str c!\"ext4\")]", "--label=QX": "[(c!\"label\", .str c!\"QX\")]"}}, "330": {"cmd": "raid", "cls": "F23_Raid.cls F23_RaidData.cls", "vs": [21000, 22000], "base": "/x --device=1 --useexisting", "bi": 2, "lines": ["--fstype=ext4", "--label=QX"], "ok": true, "kind": "L", "d": "[(c!\"lineno\", .int 7), (c!\"device\", .str c!\"1\"), (c!\"fstype\", .str c!\"\"), (c!\"level\", .str c!\"\"), (c!\"format\", .bool true), (c!\"spares\", .int 0), (c!\"preexist\", .bool true), (c!\"mountpoint\", .str c!\"/x\"), (c!\"members\", .list []), (c!\"fsopts\", .str c!\"\"), (c!\"fsprofile\", .str c!\"\"), (c!\"encrypted\", .bool false), (c!\"passphrase\", .str c!\"\"), (c!\"escrowcert\", .str c!\"\"), (c!\"backuppassphrase\", .bool false), (c!\"label\", .str c!\"\"), (c!\"cipher\", .str c!\"\"), (c!\"mkfsopts\", .str c!\"\"), (c!\"mntpoint\", .list [c!\"/x\"]), (c!\"partitions\", .list [])]", "bsets": "[]", "rows": {"--fstype=ext4": "[(c!\"fstype\", .str c!\"ext4\")]", "--label=QX": "[(c!\"label\", .str c!\"QX\")]"}}, "331": {"cmd": "raid", "cls": "F23_Raid.cls F23_RaidData.cls", "vs": [21000, 22000], "base": "/x --device=1 --level=RAID1 raid.1 raid.2 raid.3", "bi": 3, "lines": ["--device=md7", "--device=data", "--level=0", "--level=RAID5", "--level=raid6", "--level=10", "--level=linear", "--spares=1", "--spares=2"], "ok": true, "kind": "L", "d": "[(c!\"lineno\", .int 7), (c!\"device\", .str c!\"1\"), (c!\"fstype\", .str c!\"\"), (c!\"level\", .str c!\"RAID1\"), (c!\"format\", .bool true), (c!\"spares\", .int 0), (c!\"preexist\", .bool false), (c!\"mountpoint\", .str c!\"/x\"), (c!\"members\", .list [c!\"raid.1\", c!\"raid.2\", c!\"raid.3\"]), (c!\"fsopts\", .str c!\"\"), (c!\"fsprofile\", .str c!\"\"), (c!\"encrypted\", .bool false), (c!\"passphrase\", .str c!\"\"), (c!\"escrowcert\", .str c!\"\"), (c!\"backuppassphrase\", .bool false), (c!\"label\", .str c!\"\"), (c!\"cipher\", .str c!\"\"), (c!\"mkfsopts\", .str c!\"\"), (c!\"mntpoint\", .list [c!\"/x\"]), (c!\"partitions\", .list [c!\"raid.1\", c!\"raid.2\", c!\"raid.3\"])]", "bsets": "[]", "rows": {"--device=md7": "[(c!\"device\", .str c!\"7\")]", "--device=data": "[(c!\"device\", .str c!\"data\")]", "--level=0": "[(c!\"level\", .str c!\"RAID0\")]", "--level=RAID5": "[(c!\"level\", .str c!\"RAID5\")]", "--level=raid6": "[(c!\"level\", .str c!\"RAID6\")]", "--level=10": "[(c!\"level\", .str c!\"RAID10\")]", "--level=linear": "REFUSED", "--spares=1": "[(c!\"spares\", .int 1)]", "--spares=2": "[(c!\"spares\", .int 2)]"}}, "332": {"cmd": "reboot", "cls": "F23_Reboot.cls", "vs": [21000, 22000, 23000, 24000, 25000, 26000, 27000, 30000, 31000, 32000, 33000, 34000, 26100], "base": "", "bi": 0, "lines": ["--eject", "--kexec"], "ok": true, "kind": "P", "d": "[(c!\"action\", .int 1), (c!\"eject\", .bool false), (c!\"kexec\", .bool false)]", "bsets": "[(c!\"action\", .int 1)]", "rows": {"--eject": "[(c!\"eject\", .bool true)]", "--kexec": "[(c!\"kexec\", .bool true)]"}}, "333": {"cmd": "reqpart", "cls": "F23_ReqPart.cls", "vs": [21000, 22000, 23000, 24000, 25000, 26000, 27000, 30000, 31000, 32000, 33000, 34000, 26100], "base": "", "bi": 0, "lines": ["--add-boot"], "ok": true, "kind": "P", "d": "[(c!\"reqpart\", .bool true), (c!\"addBoot\", .bool false)]", "bsets": "[(c!\"reqpart\", .bool true)]", "rows": {"--add-boot": "[(c!\"addBoot\", .bool true)]"}}, "334": {"cmd": "shutdown", "cls": "F23_Reboot.cls", "vs": [21000, 22000, 23000, 24000, 25000, 26000, 27000, 30000, 31000, 32000, 33000, 34000, 26100], "base": "", "bi": 0, "lines": ["--eject", "--kexec"], "ok": true, "kind": "P", "d": "[(c!\"action\", .int 2), (c!\"eject\", .bool false), (c!\"kexec\", .bool false)]", "bsets": "[(c!\"action\", .int 2)]", "rows": {"--eject": "[(c!\"eject\", .bool true)]", "--kexec": "[(c!\"kexec\", .bool true)]"}}, "335": {"cmd": "timezone", "cls": "F23_Timezone.cls", "vs": [21000, 22000], "base": "T", "bi": 0, "lines": ["--utc", "--isUtc", "--nontp", "--ntpservers=QX"], "ok": true, "kind": "P", "d": "[(c!\"isUtc\", .bool false), (c!\"timezone\", .str c!\"T\"), (c!\"nontp\", .bool false), (c!\"ntpservers\", .list [])]", "bsets": "[(c!\"timezone\", .str c!\"T\")]", "rows": {"--utc": "[(c!\"isUtc\", .bool true)]", "--isUtc": "[(c!\"isUtc\", .bool true)]", "--nontp": "[(c!\"nontp\", .bool true)]", "--ntpservers=QX": "[(c!\"ntpservers\", .list [c!\"QX\"])]"}}, "336": {"cmd": "timezone", "cls": "F23_Timezone.cls", "vs": [21000, 22000], "base": "--utc T", "bi": 1, "lines": ["--ntpservers=QX", "--nontp"], "ok": true, "kind": "P", "d": "[(c!\"isUtc\", .bool true), (c!\"timezone\", .str c!\"T\"), (c!\"nontp\", .bool false), (c!\"ntpservers\", .list [])]", "bsets": "[(c!\"isUtc\", .bool true), (c!\"timezone\", .str c!\"T\")]", "rows": {"--ntpservers=QX": "[(c!\"ntpservers\", .list [c!\"QX\"])]", "--nontp": "[(c!\"nontp\", .bool true)]"}}, "337": {"cmd": "network", "cls": "F24_Network.cls F22_NetworkData.cls", "vs": [22000], "base": "", "bi": 0, "lines": ["--bootproto=dhcp", "--bootproto=bootp", "--bootproto=static", "--bootproto=query", "--dhcpclass=QX", "--device=QX", "--essid=QX", "--ethtool=QX", "--gateway=QX", "--hostname=QX", "--ip=QX", "--mtu=QX", "--nameserver=QX", "--netmask=QX", "--nodns", "--onboot=yes", "--onboot=off", "--wepkey=QX", "--notksdevice", "--noipv4", "--noipv6", "--ipv6=QX", "--bootproto=ibft", "--activate", "--nodefroute", "--wpakey=QX", "--bondslaves=QX", "--bondopts=QX", "--vlanid=QX", "--ipv6gateway=QX", "--teamslaves=QX", "--teamconfig=QX", "--interfacename=QX", "--bridgeslaves=QX", "--bridgeopts=QX", "--no-activate", "--bindto=mac"], "ok": true, "kind": "L", "d": "[(c!\"lineno\", .int 7), (c!\"bootProto\", .str c!\"dhcp\"), (c!\"dhcpclass\", .str c!\"\"), (c!\"device\", .str c!\"\"), (c!\"essid\", .str c!\"\"), (c!\"ethtool\", .str c!\"\"), (c!\"gateway\", .str c!\"\"), (c!\"hostname\", .str c!\"\"), (c!\"ip\", .str c!\"\"), (c!\"mtu\", .str c!\"\"), (c!\"nameserver\", .str c!\"\"), (c!\"netmask\", .str c!\"\"), (c!\"nodns\", .bool false), (c!\"onboot\", .bool true), (c!\"wepkey\", .str c!\"\"), (c!\"notksdevice\", .bool false), (c!\"noipv4\", .bool false), (c!\"noipv6\", .bool false), (c!\"ipv6\", .str c!\"\"), (c!\"activate\", .none), (c!\"nodefroute\", .bool false), (c!\"wpakey\", .str c!\"\"), (c!\"bondslaves\", .str c!\"\"), (c!\"bondopts\", .str c!\"\"), (c!\"vlanid\", .str c!\"\"), (c!\"ipv6gateway\", .str c!\"\"), (c!\"teamslaves\", .list []), (c!\"teamconfig\", .str c!\"\"), (c!\"interfacename\", .str c!\"\"), (c!\"bridgeslaves\", .str c!\"\"), (c!\"bridgeopts\", .str c!\"\")]", "bsets": "[]", "rows": {"--bootproto=dhcp": "[]", "--bootproto=bootp": "[(c!\"bootProto\", .str c!\"bootp\")]", "--bootproto=static": "[(c!\"bootProto\", .str c!\"static\")]", "--bootproto=query": "[(c!\"bootProto\", .str c!\"query\")]", "--dhcpclass=QX": "[(c!\"dhcpclass\", .str c!\"QX\")]", "--device=QX": "[(c!\"device\", .str c!\"QX\")]", "--essid=QX": "[(c!\"essid\", .str c!\"QX\")]", "--ethtool=QX": "[(c!\"ethtool\", .str c!\"QX\")]", "--gateway=QX": "[(c!\"gateway\", .str c!\"QX\")]", "--hostname=QX": "[(c!\"hostname\", .str c!\"QX\")]", "--ip=QX": "[(c!\"ip\", .str c!\"QX\")]", "--mtu=QX": "[(c!\"mtu\", .str c!\"QX\")]", "--nameserver=QX": "[(c!\"nameserver\", .str c!\"QX\")]", "--netmask=QX": "[(c!\"netmask\", .str c!\"QX\")]", "--nodns": "[(c!\"nodns\", .bool true)]", "--onboot=yes": "[]", "--onboot=off": "[(c!\"onboot\", .bool false)]", "--wepkey=QX": "[(c!\"wepkey\", .str c!\"QX\")]", "--notksdevice": "[(c!\"notksdevice\", .bool true)]", "--noipv4": "[(c!\"bootProto\", .str c!\"\"), (c!\"noipv4\", .bool true)]", "--noipv6": "[(c!\"noipv6\", .bool true)]", "--ipv6=QX": "[(c!\"ipv6\", .str c!\"QX\")]", "--bootproto=ibft": "[(c!\"bootProto\", .str c!\"ibft\")]", "--activate": "[(c!\"activate\", .bool true)]", "--nodefroute": "[(c!\"nodefroute\", .bool true)]", "--wpakey=QX": "[(c!\"wpakey\", .str c!\"QX\")]", "--bondslaves=QX": "[(c!\"bondslaves\", .str c!\"QX\")]", "--bondopts=QX": "[(c!\"bondopts\", .str c!\"QX\")]", "--vlanid=QX": "[(c!\"vlanid\", .str c!\"QX\")]", "--ipv6gateway=QX": "[(c!\"ipv6gateway\", .str c!\"QX\")]", "--teamslaves=QX": "[(c!\"teamslaves\", .pairs [(c!\"QX\", c!\"\")])]", "--teamconfig=QX": "[(c!\"teamconfig\", .str c!\"QX\")]", "--interfacename=QX": "[(c!\"interfacename\", .str c!\"QX\")]", "--bridgeslaves=QX": "[(c!\"bridgeslaves\", .str c!\"QX\")]", "--bridgeopts=QX": "REFUSED", "--no-activate": "REFUSED", "--bindto=mac": "REFUSED"}}, "338": {"cmd": "network", "cls": "F24_Network.cls F22_NetworkData.cls", "vs": [22000], "base": "--device=b --bridgeslaves=e", "bi": 1, "lines": ["--bridgeopts=stp=6", "--bridgeopts=stp", "--bridgeslaves=a,b"], "ok": true, "kind": "L", "d": "[(c!\"lineno\", .int 7), (c!\"bootProto\", .str c!\"dhcp\"), (c!\"dhcpclass\", .str c!\"\"), (c!\"device\", .str c!\"b\"), (c!\"essid\", .str c!\"\"), (c!\"ethtool\", .str c!\"\"), (c!\"gateway\", .str c!\"\"), (c!\"hostname\", .str c!\"\"), (c!\"ip\", .str c!\"\"), (c!\"mtu\", .str c!\"\"), (c!\"nameserver\", .str c!\"\"), (c!\"netmask\", .str c!\"\"), (c!\"nodns\", .bool false), (c!\"onboot\", .bool true), (c!\"wepkey\", .str c!\"\"), (c!\"notksdevice\", .bool false), (c!\"noipv4\", .bool false), (c!\"noipv6\", .bool false), (c!\"ipv6\", .str c!\"\"), (c!\"activate\", .none), (c!\"nodefroute\", .bool false), (c!\"wpakey\", .str c!\"\"), (c!\"bondslaves\", .str c!\"\"), (c!\"bondopts\", .str c!\"\"), (c!\"vlanid\", .str c!\"\"), (c!\"ipv6gateway\", .str c!\"\"), (c!\"teamslaves\", .list []), (c!\"teamconfig\", .str c!\"\"), (c!\"interfacename\", .str c!\"\"), (c!\"bridgeslaves\", .str c!\"e\"), (c!\"bridgeopts\", .str c!\"\")]", "bsets": "[]", "rows": {"--bridgeopts=stp=6": "[(c!\"bridgeopts\", .str c!\"stp=6\")]", "--bridgeopts=stp": "REFUSED", "--bridgeslaves=a,b": "[(c!\"bridgeslaves\", .str c!\"a,b\")]"}}, "339": {"cmd": "network", "cls": "F24_Network.cls F22_NetworkData.cls", "vs": [22000], "base": "--bootproto=static --ip=i", "bi": 2, "lines": ["--netmask=QX", "--gateway=QX"], "ok": true, "kind": "L", "d": "[(c!\"lineno\", .int 7), (c!\"bootProto\", .str c!\"static\"), (c!\"dhcpclass\", .str c!\"\"), (c!\"device\", .str c!\"\"), (c!\"essid\", .str c!\"\"), (c!\"ethtool\", .str c!\"\"), (c!\"gateway\", .str c!\"\"), (c!\"hostname\", .str c!\"\"), (c!\"ip\", .str c!\"i\"), (c!\"mtu\", .str c!\"\"), (c!\"nameserver\", .str c!\"\"), (c!\"netmask\", .str c!\"\"), (c!\"nodns\", .bool false), (c!\"onboot\", .bool true), (c!\"wepkey\", .str c!\"\"), (c!\"notksdevice\", .bool false), (c!\"noipv4\", .bool false), (c!\"noipv6\", .bool false), (c!\"ipv6\", .str c!\"\"), (c!\"activate\", .none), (c!\"nodefroute\", .bool false), (c!\"wpakey\", .str c!\"\"), (c!\"bondslaves\", .str c!\"\"), (c!\"bondopts\", .str c!\"\"), (c!\"vlanid\", .str c!\"\"), (c!\"ipv6gateway\", .str c!\"\"), (c!\"teamslaves\", .list []), (c!\"teamconfig\", .str c!\"\"), (c!\"interfacename\", .str c!\"\"), (c!\"bridgeslaves\", .str c!\"\"), (c!\"bridgeopts\", .str c!\"\")]", "bsets": "[]", "rows": {"--netmask=QX": "[(c!\"netmask\", .str c!\"QX\")]", "--gateway=QX": "[(c!\"gateway\", .str c!\"QX\")]"}}, "340": {"cmd": "network", "cls": "F24_Network.cls F22_NetworkData.cls", "vs": [22000], "base": "--device=t", "bi": 3, "lines": ["--teamslaves=a", "--bondslaves=a,b", "--vlanid=5"], "ok": true, "kind": "L", "d": "[(c!\"lineno\", .int 7), (c!\"bootProto\", .str c!\"dhcp\"), (c!\"dhcpclass\", .str c!\"\"), (c!\"device\", .str c!\"t\"), (c!\"essid\", .str c!\"\"), (c!\"ethtool\", .str c!\"\"), (c!\"gateway\", .str c!\"\"), (c!\"hostname\", .str c!\"\"), (c!\"ip\", .str c!\"\"), (c!\"mtu\", .str c!\"\"), (c!\"nameserver\", .str c!\"\"), (c!\"netmask\", .str c!\"\"), (c!\"nodns\", .bool false), (c!\"onboot\", .bool true), (c!\"wepkey\", .str c!\"\"), (c!\"notksdevice\", .bool false), (c!\"noipv4\", .bool false), (c!\"noipv6\", .bool false), (c!\"ipv6\", .str c!\"\"), (c!\"activate\", .none), (c!\"nodefroute\", .bool false), (c!\"wpakey\", .str c!\"\"), (c!\"bondslaves\", .str c!\"\"), (c!\"bondopts\", .str c!\"\"), (c!\"vlanid\", .str c!\"\"), (c!\"ipv6gateway\", .str c!\"\"), (c!\"teamslaves\", .list []), (c!\"teamconfig\", .str c!\"\"), (c!\"interfacename\", .str c!\"\"), (c!\"bridgeslaves\", .str c!\"\"), (c!\"bridgeopts\", .str c!\"\")]", "bsets": "[]", "rows": {"--teamslaves=a": "[(c!\"teamslaves\", .pairs [(c!\"a\", c!\"\")])]", "--bondslaves=a,b": "[(c!\"bondslaves\", .str c!\"a,b\")]", "--vlanid=5": "[(c!\"vlanid\", .str c!\"5\")]"}}, "341": {"cmd": "sshpw", "cls": "F24_SshPw.cls F24_SshPwData.cls", "vs": [22000, 23000, 24000, 25000, 26000, 27000, 30000, 31000, 32000, 33000, 34000, 26100], "base": "--username=u p", "bi": 0, "lines": ["--username=QX", "--iscrypted", "--plaintext", "--lock", "--sshkey"], "ok": true, "kind": "L", "d": "[(c!\"lineno\", .int 7), (c!\"username\", .str c!\"u\"), (c!\"isCrypted\", .bool false), (c!\"password\", .str c!\"p\"), (c!\"lock\", .bool false), (c!\"sshkey\", .bool false)]", "bsets": "[]", "rows": {"--username=QX": "[(c!\"username\", .str c!\"QX\")]", "--iscrypted": "[(c!\"isCrypted\", .bool true)]", "--plaintext": "[]", "--lock": "[(c!\"lock\", .bool true)]", "--sshkey": "[(c!\"sshkey\", .bool true)]"}}, "342": {"cmd": "user", "cls": "F24_User.cls F19_UserData.cls", "vs": [22000, 23000, 24000, 25000, 26000, 27000, 30000, 31000, 32000, 33000, 34000, 26100], "base": "--name=u", "bi": 0, "lines": ["--groups=QX", "--homedir=QX", "--iscrypted", "--name=QX", "--password=QX", "--shell=QX", "--uid=42", "--lock", "--plaintext", "--gecos=QX", "--gid=42"], "ok": true, "kind": "L", "d": "[(c!\"lineno\", .int 7), (c!\"groups\", .list []), (c!\"homedir\", .str c!\"\"), (c!\"isCrypted\", .bool false), (c!\"name\", .str c!\"u\"), (c!\"password\", .str c!\"\"), (c!\"shell\", .str c!\"\"), (c!\"uid\", .none), (c!\"lock\", .bool false), (c!\"gecos\", .str c!\"\"), (c!\"gid\", .none)]", "bsets": "[]", "rows": {"--groups=QX": "[(c!\"groups\", .list [c!\"QX\"])]", "--homedir=QX": "[(c!\"homedir\", .str c!\"QX\")]", "--iscrypted": "[(c!\"isCrypted\", .bool true)]", "--name=QX": "[(c!\"name\", .str c!\"QX\")]", "--password=QX": "[(c!\"password\", .str c!\"QX\")]", "--shell=QX": "[(c!\"shell\", .str c!\"QX\")]", "--uid=42": "[(c!\"uid\", .int 42)]", "--lock": "[(c!\"lock\", .bool true)]", "--plaintext": "[]", "--gecos=QX": "[(c!\"gecos\", .str c!\"QX\")]", "--gid=42": "[(c!\"gid\", .int 42)]"}}, "343": {"cmd": "network", "cls": "F25_Network.cls F25_NetworkData.cls", "vs": [23000, 24000], "base": "", "bi": 0, "lines": ["--bootproto=dhcp", "--bootproto=bootp", "--bootproto=static", "--bootproto=query", "--dhcpclass=QX", "--device=QX", "--essid=QX", "--ethtool=QX", "--gateway=QX", "--hostname=QX", "--ip=QX", "--mtu=QX", "--nameserver=QX", "--netmask=QX", "--nodns", "--onboot=yes", "--onboot=off", "--wepkey=QX", "--notksdevice", "--noipv4", "--noipv6", "--ipv6=QX", "--bootproto=ibft", "--activate", "--nodefroute", "--wpakey=QX", "--bondslaves=QX", "--bondopts=QX", "--vlanid=QX", "--ipv6gateway=QX", "--teamslaves=QX", "--teamconfig=QX", "--interfacename=QX", "--bridgeslaves=QX", "--bridgeopts=QX", "--no-activate", "--bindto=mac"], "ok": true, "kind": "L", "d": "[(c!\"lineno\", .int 7), (c!\"bootProto\", .str c!\"dhcp\"), (c!\"dhcpclass\", .str c!\"\"), (c!\"device\", .str c!\"\"), (c!\"essid\", .str c!\"\"), (c!\"ethtool\", .str c!\"\"), (c!\"gateway\", .str c!\"\"), (c!\"hostname\", .str c!\"\"), (c!\"ip\", .str c!\"\"), (c!\"mtu\", .str c!\"\"), (c!\"nameserver\", .str c!\"\"), (c!\"netmask\", .str c!\"\"), (c!\"nodns\", .bool false), (c!\"onboot\", .bool true), (c!\"wepkey\", .str c!\"\"), (c!\"notksdevice\", .bool false), (c!\"noipv4\", .bool false), (c!\"noipv6\", .bool false), (c!\"ipv6\", .str c!\"\"), (c!\"activate\", .none), (c!\"nodefroute\", .bool false), (c!\"wpakey\", .str c!\"\"), (c!\"bondslaves\", .str c!\"\"), (c!\"bondopts\", .str c!\"\"), (c!\"vlanid\", .str c!\"\"), (c!\"ipv6gateway\", .str c!\"\"), (c!\"teamslaves\", .list []), (c!\"teamconfig\", .str c!\"\"), (c!\"interfacename\", .str c!\"\"), (c!\"bridgeslaves\", .str c!\"\"), (c!\"bridgeopts\", .str c!\"\")]", "bsets": "[]", "rows": {"--bootproto=dhcp": "[]", "--bootproto=bootp": "[(c!\"bootProto\", .str c!\"bootp\")]", "--bootproto=static": "[(c!\"bootProto\", .str c!\"static\")]", "--bootproto=query": "[(c!\"bootProto\", .str c!\"query\")]", "--dhcpclass=QX": "[(c!\"dhcpclass\", .str c!\"QX\")]", "--device=QX": "[(c!\"device\", .str c!\"QX\")]", "--essid=QX": "[(c!\"essid\", .str c!\"QX\")]", "--ethtool=QX": "[(c!\"ethtool\", .str c!\"QX\")]", "--gateway=QX": "[(c!\"gateway\", .str c!\"QX\")]", "--hostname=QX": "[(c!\"hostname\", .str c!\"QX\")]", "--ip=QX": "[(c!\"ip\", .str c!\"QX\")]", "--mtu=QX": "[(c!\"mtu\", .str c!\"QX\")]", "--nameserver=QX": "[(c!\"nameserver\", .str c!\"QX\")]", "--netmask=QX": "[(c!\"netmask\", .str c!\"QX\")]", "--nodns": "[(c!\"nodns\", .bool true)]", "--onboot=yes": "[]", "--onboot=off": "[(c!\"onboot\", .bool false)]", "--wepkey=QX": "[(c!\"wepkey\", .str c!\"QX\")]", "--notksdevice": "[(c!\"notksdevice\", .bool true)]", "--noipv4": "[(c!\"bootProto\", .str c!\"\"), (c!\"noipv4\", .bool true)]", "--noipv6": "[(c!\"noipv6\", .bool true)]", "--ipv6=QX": "[(c!\"ipv6\", .str c!\"QX\")]", "--bootproto=ibft": "[(c!\"bootProto\", .str c!\"ibft\")]", "--activate": "[(c!\"activate\", .bool true)]", "--nodefroute": "[(c!\"nodefroute\", .bool true)]", "--wpakey=QX": "[(c!\"wpakey\", .str c!\"QX\")]", "--bondslaves=QX": "[(c!\"bondslaves\", .str c!\"QX\")]", "--bondopts=QX": "[(c!\"bondopts\", .str c!\"QX\")]", "--vlanid=QX": "[(c!\"vlanid\", .str c!\"QX\")]", "--ipv6gateway=QX": "[(c!\"ipv6gateway\", .str c!\"QX\")]", "--teamslaves=QX": "[(c!\"teamslaves\", .pairs [(c!\"QX\", c!\"\")])]", "--teamconfig=QX": "[(c!\"teamconfig\", .str c!\"QX\")]", "--interfacename=QX": "[(c!\"interfacename\", .str c!\"QX\")]", "--bridgeslaves=QX": "[(c!\"bridgeslaves\", .str c!\"QX\")]", "--bridgeopts=QX": "REFUSED", "--no-activate": "[(c!\"activate\", .bool false)]", "--bindto=mac": "REFUSED"}}, "344": {"cmd": "network", "cls": "F25_Network.cls F25_NetworkData.cls", "vs": [23000, 24000], "base": "--device=b --bridgeslaves=e", "bi": 1, "lines": ["--bridgeopts=stp=6", "--bridgeopts=stp", "--bridgeslaves=a,b"], "ok": true, "kind": "L", "d": "[(c!\"lineno\", .int 7), (c!\"bootProto\", .str c!\"dhcp\"), (c!\"dhcpclass\", .str c!\"\"), (c!\"device\", .str c!\"b\"), (c!\"essid\", .str c!\"\"), (c!\"ethtool\", .str c!\"\"), (c!\"gateway\", .str c!\"\"), (c!\"hostname\", .str c!\"\"), (c!\"ip\", .str c!\"\"), (c!\"mtu\", .str c!\"\"), (c!\"nameserver\", .str c!\"\"), (c!\"netmask\", .str c!\"\"), (c!\"nodns\", .bool false), (c!\"onboot\", .bool true), (c!\"wepkey\", .str c!\"\"), (c!\"notksdevice\", .bool false), (c!\"noipv4\", .bool false), (c!\"noipv6\", .bool false), (c!\"ipv6\", .str c!\"\"), (c!\"activate\", .none), (c!\"nodefroute\", .bool false), (c!\"wpakey\", .str c!\"\"), (c!\"bondslaves\", .str c!\"\"), (c!\"bondopts\", .str c!\"\"), (c!\"vlanid\", .str c!\"\"), (c!\"ipv6gateway\", .str c!\"\"), (c!\"teamslaves\", .list []), (c!\"teamconfig\", .str c!\"\"), (c!\"interfacename\", .str c!\"\"), (c!\"bridgeslaves\", .str c!\"e\"), (c!\"bridgeopts\", .str c!\"\")]", "bsets": "[]", "rows": {"--bridgeopts=stp=6": "[(c!\"bridgeopts\", .str c!\"stp=6\")]", "--bridgeopts=stp": "REFUSED", "--bridgeslaves=a,b": "[(c!\"bridgeslaves\", .str c!\"a,b\")]"}}, "345": {"cmd": "network", "cls": "F25_Network.cls F25_NetworkData.cls", "vs": [23000, 24000], "base": "--bootproto=static --ip=i", "bi": 2, "lines": ["--netmask=QX", "--gateway=QX"], "ok": true, "kind": "L", "d": "[(c!\"lineno\", .int 7), (c!\"bootProto\", .str c!\"static\"), (c!\"dhcpclass\", .str c!\"\"), (c!\"device\", .str c!\"\"), (c!\"essid\", .str c!\"\"), (c!\"ethtool\", .str c!\"\"), (c!\"gateway\", .str c!\"\"), (c!\"hostname\", .str c!\"\"), (c!\"ip\", .str c!\"i\"), (c!\"mtu\", .str c!\"\"), (c!\"nameserver\", .str c!\"\"), (c!\"netmask\", .str c!\"\"), (c!\"nodns\", .bool false), (c!\"onboot\", .bool true), (c!\"wepkey\", .str c!\"\"), (c!\"notksdevice\", .bool false), (c!\"noipv4\", .bool false), (c!\"noipv6\", .bool false), (c!\"ipv6\", .str c!\"\"), (c!\"activate\", .none), (c!\"nodefroute\", .bool false), (c!\"wpakey\", .str c!\"\"), (c!\"bondslaves\", .str c!\"\"), (c!\"bondopts\", .str c!\"\"), (c!\"vlanid\", .str c!\"\"), (c!\"ipv6gateway\", .str c!\"\"), (c!\"teamslaves\", .list []), (c!\"teamconfig\", .str c!\"\"), (c!\"interfacename\", .str c!\"\"), (c!\"bridgeslaves\", .str c!\"\"), (c!\"bridgeopts\", .str c!\"\")]", "bsets": "[]", "rows": {"--netmask=QX": "[(c!\"netmask\", .str c!\"QX\")]", "--gateway=QX": "[(c!\"gateway\", .str c!\"QX\")]"}}, "346": {"cmd": "network", "cls": "F25_Network.cls F25_NetworkData.cls", "vs": [23000, 24000], "base": "--device=t", "bi": 3, "lines": ["--teamslaves=a", "--bondslaves=a,b", "--vlanid=5"], "ok": true, "kind": "L", "d": "[(c!\"lineno\", .int 7), (c!\"bootProto\", .str c!\"dhcp\"), (c!\"dhcpclass\", .str c!\"\"), (c!\"device\", .str c!\"t\"), (c!\"essid\", .str c!\"\"), (c!\"ethtool\", .str c!\"\"), (c!\"gateway\", .str c!\"\"), (c!\"hostname\", .str c!\"\"), (c!\"ip\", .str c!\"\"), (c!\"mtu\", .str c!\"\"), (c!\"nameserver\", .str c!\"\"), (c!\"netmask\", .str c!\"\"), (c!\"nodns\", .bool false), (c!\"onboot\", .bool true), (c!\"wepkey\", .str c!\"\"), (c!\"notksdevice\", .bool false), (c!\"noipv4\", .bool false), (c!\"noipv6\", .bool false), (c!\"ipv6\", .str c!\"\"), (c!\"activate\", .none), (c!\"nodefroute\", .bool false), (c!\"wpakey\", .str c!\"\"), (c!\"bondslaves\", .str c!\"\"), (c!\"bondopts\", .str c!\"\"), (c!\"vlanid\", .str c!\"\"), (c!\"ipv6gateway\", .str c!\"\"), (c!\"teamslaves\", .list []), (c!\"teamconfig\", .str c!\"\"), (c!\"interfacename\", .str c!\"\"), (c!\"bridgeslaves\", .str c!\"\"), (c!\"bridgeopts\", .str c!\"\")]", "bsets": "[]", "rows": {"--teamslaves=a": "[(c!\"teamslaves\", .pairs [(c!\"a\", c!\"\")])]", "--bondslaves=a,b": "[(c!\"bondslaves\", .str c!\"a,b\")]", "--vlanid=5": "[(c!\"vlanid\", .str c!\"5\")]"}}, "347": {"cmd": "raid", "cls": "F25_Raid.cls F25_RaidData.cls", "vs": [23000, 24000, 25000, 26000], "base": "/x --device=1 --level=RAID1 raid.1 raid.2", "bi": 0, "lines": ["--device=QX", "--fstype=QX", "--level=RAID0", "--level=0", "--level=RAID1", "--level=1", "--level=RAID5", "--level=5", "--level=RAID6", "--level=6", "--level=RAID10", "--level=10", "--noformat", "--spares=42", "--useexisting", "--fsoptions=QX", "--bytes-per-inode=QX", "--fsprofile=QX", "--encrypted", "--passphrase=QX", "--escrowcert=QX", "--backuppassphrase", "--level=RAID4", "--level=4", "--label=QX", "--cipher=QX", "--mkfsoptions=QX", "--chunksize=42", "--luks-version=QX", "--pbkdf=QX", "--pbkdf-memory=42", "--pbkdf-time=42", "--pbkdf-iterations=42", "--bytes-per-inode=42"], "ok": true, "kind": "L", "d": "[(c!\"lineno\", .int 7), (c!\"device\", .str c!\"1\"), (c!\"fstype\", .str c!\"\"), (c!\"level\", .str c!\"RAID1\"), (c!\"format\", .bool true), (c!\"spares\", .int 0), (c!\"preexist\", .bool false), (c!\"mountpoint\", .str c!\"/x\"), (c!\"members\", .list [c!\"raid.1\", c!\"raid.2\"]), (c!\"fsopts\", .str c!\"\"), (c!\"fsprofile\", .str c!\"\"), (c!\"encrypted\", .bool false), (c!\"passphrase\", .str c!\"\"), (c!\"escrowcert\", .str c!\"\"), (c!\"backuppassphrase\", .bool false), (c!\"label\", .str c!\"\"), (c!\"cipher\", .str c!\"\"), (c!\"mkfsopts\", .str c!\"\"), (c!\"chunk_size\", .none), (c!\"mntpoint\", .list [c!\"/x\"]), (c!\"partitions\", .list [c!\"raid.1\", c!\"raid.2\"])]", "bsets": "[]", "rows": {"--device=QX": "[(c!\"device\", .str c!\"QX\")]", "--fstype=QX": "[(c!\"fstype\", .str c!\"QX\")]", "--level=RAID0": "[(c!\"level\", .str c!\"RAID0\")]", "--level=0": "[(c!\"level\", .str c!\"RAID0\")]", "--level=RAID1": "[]", "--level=1": "[]", "--level=RAID5": "[(c!\"level\", .str c!\"RAID5\")]", "--level=5": "[(c!\"level\", .str c!\"RAID5\")]", "--level=RAID6": "[(c!\"level\", .str c!\"RAID6\")]", "--level=6": "[(c!\"level\", .str c!\"RAID6\")]", "--level=RAID10": "[(c!\"level\", .str c!\"RAID10\")]", "--level=10": "[(c!\"level\", .str c!\"RAID10\")]", "--noformat": "REFUSED", "--spares=42": "[(c!\"spares\", .int 42)]", "--useexisting": "REFUSED", "--fsoptions=QX": "[(c!\"fsopts\", .str c!\"QX\")]", "--bytes-per-inode=QX": "REFUSED", "--fsprofile=QX": "[(c!\"fsprofile\", .str c!\"QX\")]", "--encrypted": "[(c!\"encrypted\", .bool true)]", "--passphrase=QX": "[(c!\"passphrase\", .str c!\"QX\")]", "--escrowcert=QX": "[(c!\"escrowcert\", .str c!\"QX\")]", "--backuppassphrase": "[(c!\"backuppassphrase\", .bool true)]", "--level=RAID4": "[(c!\"level\", .str c!\"RAID4\")]", "--level=4": "[(c!\"level\", .str c!\"RAID4\")]", "--label=QX": "[(c!\"label\", .str c!\"QX\")]", "--cipher=QX": "[(c!\"cipher\", .str c!\"QX\")]", "--mkfsoptions=QX": "[(c!\"mkfsopts\", .str c!\"QX\")]", "--chunksize=42": "[(c!\"chunk_size\", .int 42)]", "--luks-version=QX": "REFUSED", "--pbkdf=QX": "REFUSED", "--pbkdf-memory=42": "REFUSED", "--pbkdf-time=42": "REFUSED", "--pbkdf-iterations=42": "REFUSED", "--bytes-per-inode=42": "REFUSED"}}, "348": {"cmd": "raid", "cls": "F25_Raid.cls F25_RaidData.cls", "vs": [23000, 24000, 25000, 26000], "base": "/x --device=1 --noformat", "bi": 1, "lines": ["--fstype=ext4", "--label=QX"], "ok": true, "kind": "L", "d": "[(c!\"lineno\", .int 7), (c!\"device\", .str c!\"1\"), (c!\"fstype\", .str c!\"\"), (c!\"level\", .str c!\"\"), (c!\"format\", .bool false), (c!\"spares\", .int 0), (c!\"preexist\", .bool true), (c!\"mountpoint\", .str c!\"/x\"), (c!\"members\", .list []), (c!\"fsopts\", .str c!\"\"), (c!\"fsprofile\", .str c!\"\"), (c!\"encrypted\", .bool false), (c!\"passphrase\", .str c!\"\"), (c!\"escrowcert\", .str c!\"\"), (c!\"backuppassphrase\", .bool false), (c!\"label\", .str c!\"\"), (c!\"cipher\", .str c!\"\"), (c!\"mkfsopts\", .str c!\"\"), (c!\"chunk_size\", .none), (c!\"mntpoint\", .list [c!\"/x\"]), (c!\"partitions\", .list [])]", "bsets": "[]", "rows": {"--fstype=ext4": "[(c!\"fstype\", .str c!\"ext4\")]", "--label=QX": "[(c!\"label\", .str c!\"QX\")]"}}, "349": {"cmd": "raid", "cls": "F25_Raid.cls F25_RaidData.cls", "vs": [23000, 24000, 25000, 26000], "base": "/x --device=1 --useexisting", "bi": 2, "lines": ["--fstype=ext4", "--label=QX"], "ok": true, "kind": "L", "d": "[(c!\"lineno\", .int 7), (c!\"device\", .str c!\"1\"), (c!\"fstype\", .str c!\"\"), (c!\"level\", .str c!\"\"), (c!\"format\", .bool true), (c!\"spares\", .int 0), (c!\"preexist\", .bool true), (c!\"mountpoint\", .str c!\"/x\"), (c!\"members\", .list []), (c!\"fsopts\", .str c!\"\"), (c!\"fsprofile\", .str c!\"\"), (c!\"encrypted\", .bool false), (c!\"passphrase\", .str c!\"\"), (c!\"escrowcert\", .str c!\"\"), (c!\"backuppassphrase\", .bool false), (c!\"label\", .str c!\"\"), (c!\"cipher\", .str c!\"\"), (c!\"mkfsopts\", .str c!\"\"), (c!\"chunk_size\", .none), (c!\"mntpoint\", .list [c!\"/x\"]), (c!\"partitions\", .list [])]", "bsets": "[]", "rows": {"--fstype=ext4": "[(c!\"fstype\", .str c!\"ext4\")]", "--label=QX": "[(c!\"label\", .str c!\"QX\")]"}}, "350": {"cmd": "raid", "cls": "F25_Raid.cls F25_RaidData.cls", "vs": [23000, 24000, 25000, 26000], "base": "/x --device=1 --level=RAID1 raid.1 raid.2 raid.3", "bi": 3, "lines": ["--device=md7", "--device=data", "--level=0", "--level=RAID5", "--level=raid6", "--level=10", "--level=linear", "--spares=1", "--spares=2"], "ok": true, "kind": "L", "d": "[(c!\"lineno\", .int 7), (c!\"device\", .str c!\"1\"), (c!\"fstype\", .str c!\"\"), (c!\"level\", .str c!\"RAID1\"), (c!\"format\", .bool true), (c!\"spares\", .int 0), (c!\"preexist\", .bool false), (c!\"mountpoint\", .str c!\"/x\"), (c!\"members\", .list [c!\"raid.1\", c!\"raid.2\", c!\"raid.3\"]), (c!\"fsopts\", .str c!\"\"), (c!\"fsprofile\", .str c!\"\"), (c!\"encrypted\", .bool false), (c!\"passphrase\", .str c!\"\"), (c!\"escrowcert\", .str c!\"\"), (c!\"backuppassphrase\", .bool false), (c!\"label\", .str c!\"\"), (c!\"cipher\", .str c!\"\"), (c!\"mkfsopts\", .str c!\"\"), (c!\"chunk_size\", .none), (c!\"mntpoint\", .list [c!\"/x\"]), (c!\"partitions\", .list [c!\"raid.1\", c!\"raid.2\", c!\"raid.3\"])]", "bsets": "[]", "rows": {"--device=md7": "[(c!\"device\", .str c!\"7\")]", "--device=data": "[(c!\"device\", .str c!\"data\")]", "--level=0": "[(c!\"level\", .str c!\"RAID0\")]", "--level=RAID5": "[(c!\"level\", .str c!\"RAID5\")]", "--level=raid6": "[(c!\"level\", .str c!\"RAID6\")]", "--level=10": "[(c!\"level\", .str c!\"RAID10\")]", "--level=linear": "REFUSED", "--spares=1": "[(c!\"spares\", .int 1)]", "--spares=2": "[(c!\"spares\", .int 2)]"}}, "351": {"cmd": "timezone", "cls": "F25_Timezone.cls", "vs": [23000, 24000, 25000, 26000, 27000, 30000, 31000, 26100], "base": "T", "bi": 0, "lines": ["--utc", "--isUtc", "--nontp", "--ntpservers=QX"], "ok": true, "kind": "P", "d": "[(c!\"isUtc\", .bool false), (c!\"timezone\", .str c!\"T\"), (c!\"nontp\", .bool false), (c!\"ntpservers\", .list [])]", "bsets": "[(c!\"timezone\", .str c!\"T\")]", "rows": {"--utc": "[(c!\"isUtc\", .bool true)]", "--isUtc": "[(c!\"isUtc\", .bool true)]", "--nontp": "[(c!\"nontp\", .bool true)]", "--ntpservers=QX": "[(c!\"ntpservers\", .list [c!\"QX\"])]"}}, "352": {"cmd": "timezone", "cls": "F25_Timezone.cls", "vs": [23000, 24000, 25000, 26000, 27000, 30000, 31000, 26100], "base": "--utc T", "bi": 1, "lines": ["--ntpservers=QX", "--nontp"], "ok": true, "kind": "P", "d": "[(c!\"isUtc\", .bool true), (c!\"timezone\", .str c!\"T\"), (c!\"nontp\", .bool false), (c!\"ntpservers\", .list [])]", "bsets": "[(c!\"isUtc\", .bool true), (c!\"timezone\", .str c!\"T\")]", "rows": {"--ntpservers=QX": "[(c!\"ntpservers\", .list [c!\"QX\"])]", "--nontp": "[(c!\"nontp\", .bool true)]"}}, "353": {"cmd": "autopart", "cls": "F26_AutoPart.cls", "vs": [24000, 25000, 26000], "base": "", "bi": 0, "lines": ["--encrypted", "--passphrase=QX", "--escrowcert=QX", "--backuppassphrase", "--nolvm", "--type=lvm", "--type=btrfs", "--type=plain", "--type=partition", "--cipher=QX", "--type=thinp", "--fstype=QX", "--nohome", "--noboot", "--noswap", "--luks-version=QX", "--pbkdf=QX", "--pbkdf-memory=42", "--pbkdf-time=42", "--pbkdf-iterations=42"], "ok": true, "kind": "P", "d": "[(c!\"autopart\", .bool true), (c!\"encrypted\", .bool false), (c!\"passphrase\", .str c!\"\"), (c!\"escrowcert\", .str c!\"\"), (c!\"backuppassphrase\", .bool false), (c!\"lvm\", .bool true), (c!\"type\", .none), (c!\"cipher\", .str c!\"\"), (c!\"fstype\", .str c!\"\"), (c!\"nohome\", .bool false), (c!\"noboot\", .bool false), (c!\"noswap\", .bool false)]", "bsets": "[(c!\"autopart\", .bool true)]", "rows": {"--encrypted": "[(c!\"encrypted\", .bool true)]", "--passphrase=QX": "[(c!\"passphrase\", .str c!\"QX\")]", "--escrowcert=QX": "[(c!\"escrowcert\", .str c!\"QX\")]", "--backuppassphrase": "[(c!\"backuppassphrase\", .bool true)]", "--nolvm": "[(c!\"type\", .int 0)]", "--type=lvm": "[(c!\"type\", .int 2)]", "--type=btrfs": "[(c!\"type\", .int 1)]", "--type=plain": "[(c!\"type\", .int 0)]", "--type=partition": "[(c!\"type\", .int 0)]", "--cipher=QX": "[(c!\"cipher\", .str c!\"QX\")]", "--type=thinp": "[(c!\"type\", .int 3)]", "--fstype=QX": "[(c!\"fstype\", .str c!\"QX\")]", "--nohome": "[(c!\"nohome\", .bool true)]", "--noboot": "[(c!\"noboot\", .bool true)]", "--noswap": "[(c!\"noswap\", .bool true)]", "--luks-version=QX": "REFUSED", "--pbkdf=QX": "REFUSED", "--pbkdf-memory=42": "REFUSED", "--pbkdf-time=42": "REFUSED", "--pbkdf-iterations=42": "REFUSED"}}, "354": {"cmd": "cmdline", "cls": "F26_DisplayMode.cls", "vs": [24000, 25000, 26000, 27000, 30000, 31000, 32000, 33000, 34000, 26100], "base": "", "bi": 0, "lines": ["--non-interactive"], "ok": true, "kind": "P", "d": "[(c!\"displayMode\", .int 0), (c!\"nonInteractive\", .bool false)]", "bsets": "[(c!\"displayMode\", .int 0)]", "rows": {"--non-interactive": "REFUSED"}}, "355": {"cmd": "graphical", "cls": "F26_DisplayMode.cls", "vs": [24000, 25000, 26000, 27000, 30000, 31000, 32000, 33000, 34000, 26100], "base": "", "bi": 0, "lines": ["--non-interactive"], "ok": true, "kind": "P", "d": "[(c!\"displayMode\", .int 1), (c!\"nonInteractive\", .bool false)]", "bsets": "[(c!\"displayMode\", .int 1)]", "rows": {"--non-interactive": "[(c!\"nonInteractive\", .bool true)]"}}, "356": {"cmd": "snapshot", "cls": "F26_Snapshot.cls F26_SnapshotData.cls", "vs": [24000, 25000, 26000, 27000, 30000, 31000, 32000, 33000, 34000, 19100, 26100], "base": "a/b --name=s --when=pre-install", "bi": 0, "lines": ["--name=QX", "--when=post-install", "--when=pre-install"], "ok": true, "kind": "L", "d": "[(c!\"lineno\", .int 7), (c!\"name\", .str c!\"s\"), (c!\"origin\", .str c!\"a/b\"), (c!\"when\", .int 1)]", "bsets": "[]", "rows": {"--name=QX": "[(c!\"name\", .str c!\"QX\")]", "--when=post-install": "[(c!\"when\", .int 0)]", "--when=pre-install": "[]"}}, "357": {"cmd": "text", "cls": "F26_DisplayMode.cls", "vs": [24000, 25000, 26000, 27000, 30000, 31000, 32000, 33000, 34000, 26100], "base": "", "bi": 0, "lines": ["--non-interactive"], "ok": true, "kind": "P", "d": "[(c!\"displayMode\", .int 2), (c!\"nonInteractive\", .bool false)]", "bsets": "[(c!\"displayMode\", .int 2)]", "rows": {"--non-interactive": "[(c!\"nonInteractive\", .bool true)]"}}, "358": {"cmd": "mount", "cls": "F27_Mount.cls F27_MountData.cls", "vs": [25000, 26000, 27000, 30000, 31000, 32000, 33000, 34000, 26100], "base": "a /x", "bi": 0, "lines": ["--reformat=QX", "--mkfsoptions=QX", "--mountoptions=QX"], "ok": true, "kind": "L", "d": "[(c!\"lineno\", .int 7), (c!\"mount_point\", .str c!\"/x\"), (c!\"device\", .str c!\"a\"), (c!\"format\", .str c!\"\"), (c!\"reformat\", .bool false), (c!\"mkfs_opts\", .str c!\"\"), (c!\"mount_opts\", .str c!\"\"), (c!\"mntpoint\", .list [c!\"/x\"])]", "bsets": "[]", "rows": {"--reformat=QX": "[(c!\"format\", .str c!\"QX\"), (c!\"reformat\", .bool true)]", "--mkfsoptions=QX": "REFUSED", "--mountoptions=QX": "[(c!\"mount_opts\", .str c!\"QX\")]"}}, "359": {"cmd": "mount", "cls": "F27_Mount.cls F27_MountData.cls", "vs": [25000, 26000, 27000, 30000, 31000, 32000, 33000, 34000, 26100], "base": "a /x --reformat=ext4", "bi": 1, "lines": ["--mkfsoptions=QX"], "ok": true, "kind": "L", "d": "[(c!\"lineno\", .int 7), (c!\"mount_point\", .str c!\"/x\"), (c!\"device\", .str c!\"a\"), (c!\"format\", .str c!\"ext4\"), (c!\"reformat\", .bool true), (c!\"mkfs_opts\", .str c!\"\"), (c!\"mount_opts\", .str c!\"\"), (c!\"mntpoint\", .list [c!\"/x\"])]", "bsets": "[]", "rows": {"--mkfsoptions=QX": "[(c!\"mkfs_opts\", .str c!\"QX\")]"}}, "360": {"cmd": "network", "cls": "F27_Network.cls F27_NetworkData.cls", "vs": [25000, 26000, 27000, 30000, 31000, 32000, 33000, 34000, 26100], "base": "", "bi": 0, "lines": ["--bootproto=dhcp", "--bootproto=bootp", "--bootproto=static", "--bootproto=query", "--dhcpclass=QX", "--device=QX", "--essid=QX", "--ethtool=QX", "--gateway=QX", "--hostname=QX", "--ip=QX", "--mtu=QX", "--nameserver=QX", "--netmask=QX", "--nodns", "--onboot=yes", "--onboot=off", "--wepkey=QX", "--notksdevice", "--noipv4", "--noipv6", "--ipv6=QX", "--bootproto=ibft", "--activate", "--nodefroute", "--wpakey=QX", "--bondslaves=QX", "--bondopts=QX", "--vlanid=QX", "--ipv6gateway=QX", "--teamslaves=QX", "--teamconfig=QX", "--interfacename=QX", "--bridgeslaves=QX", "--bridgeopts=QX", "--no-activate", "--bindto=mac"], "ok": true, "kind": "L", "d": "[(c!\"lineno\", .int 7), (c!\"bootProto\", .str c!\"dhcp\"), (c!\"dhcpclass\", .str c!\"\"), (c!\"device\", .str c!\"\"), (c!\"essid\", .str c!\"\"), (c!\"ethtool\", .str c!\"\"), (c!\"gateway\", .str c!\"\"), (c!\"hostname\", .str c!\"\"), (c!\"ip\", .str c!\"\"), (c!\"mtu\", .str c!\"\"), (c!\"nameserver\", .str c!\"\"), (c!\"netmask\", .str c!\"\"), (c!\"nodns\", .bool false), (c!\"onboot\", .bool true), (c!\"wepkey\", .str c!\"\"), (c!\"notksdevice\", .bool false), (c!\"noipv4\", .bool false), (c!\"noipv6\", .bool false), (c!\"ipv6\", .str c!\"\"), (c!\"activate\", .none), (c!\"nodefroute\", .bool false), (c!\"wpakey\", .str c!\"\"), (c!\"bondslaves\", .str c!\"\"), (c!\"bondopts\", .str c!\"\"), (c!\"vlanid\", .str c!\"\"), (c!\"ipv6gateway\", .str c!\"\"), (c!\"teamslaves\", .list []), (c!\"teamconfig\", .str c!\"\"), (c!\"interfacename\", .str c!\"\"), (c!\"bridgeslaves\", .str c!\"\"), (c!\"bridgeopts\", .str c!\"\"), (c!\"bindto\", .none)]", "bsets": "[]", "rows": {"--bootproto=dhcp": "[]", "--bootproto=bootp": "[(c!\"bootProto\", .str c!\"bootp\")]", "--bootproto=static": "[(c!\"bootProto\", .str c!\"static\")]", "--bootproto=query": "[(c!\"bootProto\", .str c!\"query\")]", "--dhcpclass=QX": "[(c!\"dhcpclass\", .str c!\"QX\")]", "--device=QX": "[(c!\"device\", .str c!\"QX\")]", "--essid=QX": "[(c!\"essid\", .str c!\"QX\")]", "--ethtool=QX": "[(c!\"ethtool\", .str c!\"QX\")]", "--gateway=QX": "[(c!\"gateway\", .str c!\"QX\")]", "--hostname=QX": "[(c!\"hostname\", .str c!\"QX\")]", "--ip=QX": "[(c!\"ip\", .str c!\"QX\")]", "--mtu=QX": "[(c!\"mtu\", .str c!\"QX\")]", "--nameserver=QX": "[(c!\"nameserver\", .str c!\"QX\")]", "--netmask=QX": "[(c!\"netmask\", .str c!\"QX\")]", "--nodns": "[(c!\"nodns\", .bool true)]", "--onboot=yes": "[]", "--onboot=off": "[(c!\"onboot\", .bool false)]", "--wepkey=QX": "[(c!\"wepkey\", .str c!\"QX\")]", "--notksdevice": "[(c!\"notksdevice\", .bool true)]", "--noipv4": "[(c!\"bootProto\", .str c!\"\"), (c!\"noipv4\", .bool true)]", "--noipv6": "[(c!\"noipv6\", .bool true)]", "--ipv6=QX": "[(c!\"ipv6\", .str c!\"QX\")]", "--bootproto=ibft": "[(c!\"bootProto\", .str c!\"ibft\")]", "--activate": "[(c!\"activate\", .bool true)]", "--nodefroute": "[(c!\"nodefroute\", .bool true)]", "--wpakey=QX": "[(c!\"wpakey\", .str c!\"QX\")]", "--bondslaves=QX": "[(c!\"bondslaves\", .str c!\"QX\")]", "--bondopts=QX": "[(c!\"bondopts\", .str c!\"QX\")]", "--vlanid=QX": "[(c!\"vlanid\", .str c!\"QX\")]", "--ipv6gateway=QX": "[(c!\"ipv6gateway\", .str c!\"QX\")]", "--teamslaves=QX": "[(c!\"teamslaves\", .pairs [(c!\"QX\", c!\"\")])]", "--teamconfig=QX": "[(c!\"teamconfig\", .str c!\"QX\")]", "--interfacename=QX": "[(c!\"interfacename\", .str c!\"QX\")]", "--bridgeslaves=QX": "[(c!\"bridgeslaves\", .str c!\"QX\")]", "--bridgeopts=QX": "REFUSED", "--no-activate": "[(c!\"activate\", .bool false)]", "--bindto=mac": "[(c!\"bindto\", .str c!\"mac\")]"}}, "361": {"cmd": "network", "cls": "F27_Network.cls F27_NetworkData.cls", "vs": [25000, 26000, 27000, 30000, 31000, 32000, 33000, 34000, 26100], "base": "--device=b --bridgeslaves=e", "bi": 1, "lines": ["--bridgeopts=stp=6", "--bridgeopts=stp", "--bridgeslaves=a,b"], "ok": true, "kind": "L", "d": "[(c!\"lineno\", .int 7), (c!\"bootProto\", .str c!\"dhcp\"), (c!\"dhcpclass\", .str c!\"\"), (c!\"device\", .str c!\"b\"), (c!\"essid\", .str c!\"\"), (c!\"ethtool\", .str c!\"\"), (c!\"gateway\", .str c!\"\"), (c!\"hostname\", .str c!\"\"), (c!\"ip\", .str c!\"\"), (c!\"mtu\", .str c!\"\"), (c!\"nameserver\", .str c!\"\"), (c!\"netmask\", .str c!\"\"), (c!\"nodns\", .bool false), (c!\"onboot\", .bool true), (c!\"wepkey\", .str c!\"\"), (c!\"notksdevice\", .bool false), (c!\"noipv4\", .bool false), (c!\"noipv6\", .bool false), (c!\"ipv6\", .str c!\"\"), (c!\"activate\", .none), (c!\"nodefroute\", .bool false), (c!\"wpakey\", .str c!\"\"), (c!\"bondslaves\", .str c!\"\"), (c!\"bondopts\", .str c!\"\"), (c!\"vlanid\", .str c!\"\"), (c!\"ipv6gateway\", .str c!\"\"), (c!\"teamslaves\", .list []), (c!\"teamconfig\", .str c!\"\"), (c!\"interfacename\", .str c!\"\"), (c!\"bridgeslaves\", .str c!\"e\"), (c!\"bridgeopts\", .str c!\"\"), (c!\"bindto\", .none)]", "bsets": "[]", "rows": {"--bridgeopts=stp=6": "[(c!\"bridgeopts\", .str c!\"stp=6\")]", "--bridgeopts=stp": "REFUSED", "--bridgeslaves=a,b": "[(c!\"bridgeslaves\", .str c!\"a,b\")]"}}, "362": {"cmd": "network", "cls": "F27_Network.cls F27_NetworkData.cls", "vs": [25000, 26000, 27000, 30000, 31000, 32000, 33000, 34000, 26100], "base": "--bootproto=static --ip=i", "bi": 2, "lines": ["--netmask=QX", "--gateway=QX"], "ok": true, "kind": "L", "d": "[(c!\"lineno\", .int 7), (c!\"bootProto\", .str c!\"static\"), (c!\"dhcpclass\", .str c!\"\"), (c!\"device\", .str c!\"\"), (c!\"essid\", .str c!\"\"), (c!\"ethtool\", .str c!\"\"), (c!\"gateway\", .str c!\"\"), (c!\"hostname\", .str c!\"\"), (c!\"ip\", .str c!\"i\"), (c!\"mtu\", .str c!\"\"), (c!\"nameserver\", .str c!\"\"), (c!\"netmask\", .str c!\"\"), (c!\"nodns\", .bool false), (c!\"onboot\", .bool true), (c!\"wepkey\", .str c!\"\"), (c!\"notksdevice\", .bool false), (c!\"noipv4\", .bool false), (c!\"noipv6\", .bool false), (c!\"ipv6\", .str c!\"\"), (c!\"activate\", .none), (c!\"nodefroute\", .bool false), (c!\"wpakey\", .str c!\"\"), (c!\"bondslaves\", .str c!\"\"), (c!\"bondopts\", .str c!\"\"), (c!\"vlanid\", .str c!\"\"), (c!\"ipv6gateway\", .str c!\"\"), (c!\"teamslaves\", .list []), (c!\"teamconfig\", .str c!\"\"), (c!\"interfacename\", .str c!\"\"), (c!\"bridgeslaves\", .str c!\"\"), (c!\"bridgeopts\", .str c!\"\"), (c!\"bindto\", .none)]", "bsets": "[]", "rows": {"--netmask=QX": "[(c!\"netmask\", .str c!\"QX\")]", "--gateway=QX": "[(c!\"gateway\", .str c!\"QX\")]"}}, "363": {"cmd": "network", "cls": "F27_Network.cls F27_NetworkData.cls", "vs": [25000, 26000, 27000, 30000, 31000, 32000, 33000, 34000, 26100], "base": "--device=t", "bi": 3, "lines": ["--teamslaves=a", "--bondslaves=a,b", "--vlanid=5"], "ok": true, "kind": "L", "d": "[(c!\"lineno\", .int 7), (c!\"bootProto\", .str c!\"dhcp\"), (c!\"dhcpclass\", .str c!\"\"), (c!\"device\", .str c!\"t\"), (c!\"essid\", .str c!\"\"), (c!\"ethtool\", .str c!\"\"), (c!\"gateway\", .str c!\"\"), (c!\"hostname\", .str c!\"\"), (c!\"ip\", .str c!\"\"), (c!\"mtu\", .str c!\"\"), (c!\"nameserver\", .str c!\"\"), (c!\"netmask\", .str c!\"\"), (c!\"nodns\", .bool false), (c!\"onboot\", .bool true), (c!\"wepkey\", .str c!\"\"), (c!\"notksdevice\", .bool false), (c!\"noipv4\", .bool false), (c!\"noipv6\", .bool false), (c!\"ipv6\", .str c!\"\"), (c!\"activate\", .none), (c!\"nodefroute\", .bool false), (c!\"wpakey\", .str c!\"\"), (c!\"bondslaves\", .str c!\"\"), (c!\"bondopts\", .str c!\"\"), (c!\"vlanid\", .str c!\"\"), (c!\"ipv6gateway\", .str c!\"\"), (c!\"teamslaves\", .list []), (c!\"teamconfig\", .str c!\"\"), (c!\"interfacename\", .str c!\"\"), (c!\"bridgeslaves\", .str c!\"\"), (c!\"bridgeopts\", .str c!\"\"), (c!\"bindto\", .none)]", "bsets": "[]", "rows": {"--teamslaves=a": "[(c!\"teamslaves\", .pairs [(c!\"a\", c!\"\")])]", "--bondslaves=a,b": "[(c!\"bondslaves\", .str c!\"a,b\")]", "--vlanid=5": "[(c!\"vlanid\", .str c!\"5\")]"}}, "364": {"cmd": "repo", "cls": "F27_Repo.cls F27_RepoData.cls", "vs": [25000, 26000, 27000], "base": "--name=r --baseurl=b", "bi": 0, "lines": ["--name=QX", "--baseurl=QX", "--mirrorlist=QX", "--cost=42", "--excludepkgs=QX", "--includepkgs=QX", "--ignoregroups=yes", "--ignoregroups=off", "--proxy=QX", "--noverifyssl", "--install", "--metalink=QX", "--sslcacert=QX", "--sslclientcert=QX", "--sslclientkey=QX"], "ok": true, "kind": "L", "d": "[(c!\"lineno\", .int 7), (c!\"baseurl\", .str c!\"b\"), (c!\"mirrorlist\", .none), (c!\"name\", .str c!\"r\"), (c!\"cost\", .none), (c!\"includepkgs\", .list []), (c!\"excludepkgs\", .list []), (c!\"ignoregroups\", .none), (c!\"proxy\", .str c!\"\"), (c!\"noverifyssl\", .bool false), (c!\"install\", .bool false), (c!\"metalink\", .bool false)]", "bsets": "[]", "rows": {"--name=QX": "[(c!\"name\", .str c!\"QX\")]", "--baseurl=QX": "[(c!\"baseurl\", .str c!\"QX\")]", "--mirrorlist=QX": "REFUSED", "--cost=42": "[(c!\"cost\", .int 42)]", "--excludepkgs=QX": "[(c!\"excludepkgs\", .list [c!\"QX\"])]", "--includepkgs=QX": "[(c!\"includepkgs\", .list [c!\"QX\"])]", "--ignoregroups=yes": "[(c!\"ignoregroups\", .bool true)]", "--ignoregroups=off": "[(c!\"ignoregroups\", .bool false)]", "--proxy=QX": "[(c!\"proxy\", .str c!\"QX\")]", "--noverifyssl": "[(c!\"noverifyssl\", .bool true)]", "--install": "[(c!\"install\", .bool true)]", "--metalink=QX": "REFUSED", "--sslcacert=QX": "REFUSED", "--sslclientcert=QX": "REFUSED", "--sslclientkey=QX": "REFUSED"}}, "365": {"cmd": "repo", "cls": "F27_Repo.cls F27_RepoData.cls", "vs": [25000, 26000, 27000], "base": "--name=r --mirrorlist=m", "bi": 1, "lines": ["--baseurl=QX", "--metalink=QX"], "ok": true, "kind": "L", "d": "[(c!\"lineno\", .int 7), (c!\"baseurl\", .str c!\"\"), (c!\"mirrorlist\", .str c!\"m\"), (c!\"name\", .str c!\"r\"), (c!\"cost\", .none), (c!\"includepkgs\", .list []), (c!\"excludepkgs\", .list []), (c!\"ignoregroups\", .none), (c!\"proxy\", .str c!\"\"), (c!\"noverifyssl\", .bool false), (c!\"install\", .bool false), (c!\"metalink\", .bool false)]", "bsets": "[]", "rows": {"--baseurl=QX": "REFUSED", "--metalink=QX": "REFUSED"}}, "366": {"cmd": "repo", "cls": "F27_Repo.cls F27_RepoData.cls", "vs": [25000, 26000, 27000], "base": "--name=r --metalink=m", "bi": 2, "lines": ["--mirrorlist=QX"], "ok": true, "kind": "L", "d": "[(c!\"lineno\", .int 7), (c!\"baseurl\", .str c!\"\"), (c!\"mirrorlist\", .none), (c!\"name\", .str c!\"r\"), (c!\"cost\", .none), (c!\"includepkgs\", .list []), (c!\"excludepkgs\", .list []), (c!\"ignoregroups\", .none), (c!\"proxy\", .str c!\"\"), (c!\"noverifyssl\", .bool false), (c!\"install\", .bool false), (c!\"metalink\", .str c!\"m\")]", "bsets": "[]", "rows": {"--mirrorlist=QX": "REFUSED"}}, "367": {"cmd": "url", "cls": "F27_Url.cls", "vs": [25000, 26000, 27000], "base": "--url=U", "bi": 0, "lines": ["--url=QX", "--proxy=QX", "--noverifyssl", "--mirrorlist=QX", "--metalink=QX", "--sslcacert=QX", "--sslclientcert=QX", "--sslclientkey=QX"], "ok": true, "kind": "P", "d": "[(c!\"url\", .str c!\"U\"), (c!\"proxy\", .str c!\"\"), (c!\"noverifyssl\", .bool false), (c!\"mirrorlist\", .none), (c!\"metalink\", .none)]", "bsets": "[(c!\"url\", .str c!\"U\")]", "rows": {"--url=QX": "[(c!\"url\", .str c!\"QX\")]", "--proxy=QX": "[(c!\"proxy\", .str c!\"QX\")]", "--noverifyssl": "[(c!\"noverifyssl\", .bool true)]", "--mirrorlist=QX": "REFUSED", "--metalink=QX": "REFUSED", "--sslcacert=QX": "REFUSED", "--sslclientcert=QX": "REFUSED", "--sslclientkey=QX": "REFUSED"}}, "368": {"cmd": "url", "cls": "F27_Url.cls", "vs": [25000, 26000, 27000], "base": "--mirrorlist=M", "bi": 1, "lines": ["--proxy=QX", "--metalink=QX", "--url=QX"], "ok": true, "kind": "P", "d": "[(c!\"url\", .none), (c!\"proxy\", .str c!\"\"), (c!\"noverifyssl\", .bool false), (c!\"mirrorlist\", .str c!\"M\"), (c!\"metalink\", .none)]", "bsets": "[(c!\"mirrorlist\", .str c!\"M\")]", "rows": {"--proxy=QX": "[(c!\"proxy\", .str c!\"QX\")]", "--metalink=QX": "REFUSED", "--url=QX": "REFUSED"}}, "369": {"cmd": "url", "cls": "F27_Url.cls", "vs": [25000, 26000, 27000], "base": "--metalink=M", "bi": 2, "lines": ["--mirrorlist=QX"], "ok": true, "kind": "P", "d": "[(c!\"url\", .none), (c!\"proxy\", .str c!\"\"), (c!\"noverifyssl\", .bool false), (c!\"mirrorlist\", .none), (c!\"metalink\", .str c!\"M\")]", "bsets": "[(c!\"metalink\", .str c!\"M\")]", "rows": {"--mirrorlist=QX": "REFUSED"}}, "370": {"cmd": "clearpart", "cls": "F28_ClearPart.cls", "vs": [26000, 27000, 30000, 31000, 32000, 33000, 34000, 26100], "base": "", "bi": 0, "lines": ["--all", "--drives=QX", "--initlabel", "--linux", "--none", "--list=QX", "--disklabel=QX", "--cdl"], "ok": true, "kind": "P", "d": "[(c!\"drives\", .list []), (c!\"initAll\", .bool false), (c!\"type\", .none), (c!\"devices\", .list []), (c!\"disklabel\", .str c!\"\"), (c!\"cdl\", .bool false)]", "bsets": "[]", "rows": {"--all": "[(c!\"type\", .int 1)]", "--drives=QX": "[(c!\"drives\", .list [c!\"QX\"])]", "--initlabel": "[(c!\"initAll\", .bool true)]", "--linux": "[(c!\"type\", .int 0)]", "--none": "[(c!\"type\", .int 2)]", "--list=QX": "[(c!\"type\", .int 3), (c!\"devices\", .list [c!\"QX\"])]", "--disklabel=QX": "[(c!\"disklabel\", .str c!\"QX\")]", "--cdl": "[(c!\"cdl\", .bool true)]"}}, "371": {"cmd": "clearpart", "cls": "F28_ClearPart.cls", "vs": [26000, 27000, 30000, 31000, 32000, 33000, 34000, 26100], "base": "--all", "bi": 1, "lines": ["--initlabel", "--drives=QX", "--linux"], "ok": true, "kind": "P", "d": "[(c!\"drives\", .list []), (c!\"initAll\", .bool false), (c!\"type\", .int 1), (c!\"devices\", .list []), (c!\"disklabel\", .str c!\"\"), (c!\"cdl\", .bool false)]", "bsets": "[(c!\"type\", .int 1)]", "rows": {"--initlabel": "[(c!\"initAll\", .bool true)]", "--drives=QX": "[(c!\"drives\", .list [c!\"QX\"])]", "--linux": "[(c!\"type\", .int 0)]"}}, "372": {"cmd": "fcoe", "cls": "F28_Fcoe.cls F28_FcoeData.cls", "vs": [26000, 27000, 30000, 31000, 32000, 33000, 34000], "base": "--nic=n", "bi": 0, "lines": ["--nic=QX", "--dcb", "--autovlan"], "ok": true, "kind": "L", "d": "[(c!\"lineno\", .int 7), (c!\"nic\", .str c!\"n\"), (c!\"dcb\", .bool false), (c!\"autovlan\", .bool false)]", "bsets": "[]", "rows": {"--nic=QX": "[(c!\"nic\", .str c!\"QX\")]", "--dcb": "[(c!\"dcb\", .bool true)]", "--autovlan": "[(c!\"autovlan\", .bool true)]"}}, "373": {"cmd": "firewall", "cls": "F28_Firewall.cls", "vs": [26000, 27000, 30000, 31000, 32000, 33000, 34000, 26100], "base": "", "bi": 0, "lines": ["--disable", "--disabled", "--enable", "--enabled", "--port=QX:tcp", "--trust=QX", "--service=QX", "--ftp", "--http", "--smtp", "--ssh", "--telnet=QX", "--remove-service=QX", "--use-system-defaults", "--telnet", "--high=QX", "--medium=QX"], "ok": true, "kind": "P", "d": "[(c!\"enabled\", .bool true), (c!\"ports\", .list []), (c!\"trusts\", .list []), (c!\"services\", .list []), (c!\"remove_services\", .list []), (c!\"use_system_defaults\", .bool false)]", "bsets": "[(c!\"enabled\", .bool true), (c!\"use_system_defaults\", .bool false)]", "rows": {"--disable": "[(c!\"enabled\", .bool false)]", "--disabled": "[(c!\"enabled\", .bool false)]", "--enable": "[]", "--enabled": "[]", "--port=QX:tcp": "[(c!\"ports\", .list [c!\"QX:tcp\"])]", "--trust=QX": "[(c!\"trusts\", .list [c!\"QX\"])]", "--service=QX": "[(c!\"services\", .list [c!\"QX\"])]", "--ftp": "[(c!\"services\", .list [c!\"ftp\"])]", "--http": "[(c!\"services\", .list [c!\"http\"])]", "--smtp": "[(c!\"services\", .list [c!\"smtp\"])]", "--ssh": "[(c!\"services\", .list [c!\"ssh\"])]", "--telnet=QX": "REFUSED", "--remove-service=QX": "[(c!\"remove_services\", .list [c!\"QX\"])]", "--use-system-defaults": "[(c!\"use_system_defaults\", .bool true)]", "--telnet": "REFUSED", "--high=QX": "REFUSED", "--medium=QX": "REFUSED"}}, "374": {"cmd": "hmc", "cls": "F28_Hmc.cls", "vs": [26000, 27000, 30000, 31000, 32000, 33000, 34000, 26100], "base": "", "bi": 0, "lines": ["x", "--x"], "ok": true, "kind": "P", "d": "[]", "bsets": "[]", "rows": {"x": "REFUSED", "--x": "REFUSED"}}, "375": {"cmd": "nvdimm", "cls": "F28_Nvdimm.cls F28_NvdimmData.cls", "vs": [26000, 27000, 30000, 31000, 32000, 33000, 34000, 19100, 26100], "base": "use --namespace=n", "bi": 0, "lines": ["--namespace=QX", "--blockdevs=QX", "--mode=sector", "--sectorsize=42"], "ok": true, "kind": "L", "d": "[(c!\"lineno\", .int 7), (c!\"action\", .str c!\"use\"), (c!\"namespace\", .str c!\"n\"), (c!\"mode\", .str c!\"sector\"), (c!\"sectorsize\", .none), (c!\"blockdevs\", .list [])]", "bsets": "[]", "rows": {"--namespace=QX": "[(c!\"namespace\", .str c!\"QX\")]", "--blockdevs=QX": "REFUSED", "--mode=sector": "[]", "--sectorsize=42": "[(c!\"sectorsize\", .int 42)]"}}, "376": {"cmd": "nvdimm", "cls": "F28_Nvdimm.cls F28_NvdimmData.cls", "vs": [26000, 27000, 30000, 31000, 32000, 33000, 34000, 19100, 26100], "base": "use --blockdevs=a,b", "bi": 1, "lines": ["--namespace=QX"], "ok": true, "kind": "L", "d": "[(c!\"lineno\", .int 7), (c!\"action\", .str c!\"use\"), (c!\"namespace\", .str c!\"\"), (c!\"mode\", .str c!\"sector\"), (c!\"sectorsize\", .none), (c!\"blockdevs\", .list [c!\"a\", c!\"b\"])]", "bsets": "[]", "rows": {"--namespace=QX": "REFUSED"}}, "377": {"cmd": "nvdimm", "cls": "F28_Nvdimm.cls F28_NvdimmData.cls", "vs": [26000, 27000, 30000, 31000, 32000, 33000, 34000, 19100, 26100], "base": "reconfigure --namespace=n --mode=sector", "bi": 2, "lines": ["--sectorsize=512", "--blockdevs=QX"], "ok": false}, "378": {"cmd": "autopart", "cls": "F29_AutoPart.cls", "vs": [27000, 30000, 31000, 32000, 33000, 34000], "base": "", "bi": 0, "lines": ["--encrypted", "--passphrase=QX", "--escrowcert=QX", "--backuppassphrase", "--nolvm", "--type=lvm", "--type=btrfs", "--type=plain", "--type=partition", "--cipher=QX", "--type=thinp", "--fstype=QX", "--nohome", "--noboot", "--noswap", "--luks-version=QX", "--pbkdf=QX", "--pbkdf-memory=42", "--pbkdf-time=42", "--pbkdf-iterations=42"], "ok": true, "kind": "P", "d": "[(c!\"autopart\", .bool true), (c!\"encrypted\", .bool false), (c!\"passphrase\", .str c!\"\"), (c!\"escrowcert\", .str c!\"\"), (c!\"backuppassphrase\", .bool false), (c!\"lvm\", .bool true), (c!\"type\", .none), (c!\"cipher\", .str c!\"\"), (c!\"fstype\", .str c!\"\"), (c!\"nohome\", .bool false), (c!\"noboot\", .bool false), (c!\"noswap\", .bool false), (c!\"luks_version\", .str c!\"\"), (c!\"pbkdf\", .str c!\"\"), (c!\"pbkdf_memory\", .int 0), (c!\"pbkdf_time\", .int 0), (c!\"pbkdf_iterations\", .int 0)]", "bsets": "[(c!\"autopart\", .bool true)]", "rows": {"--encrypted": "[(c!\"encrypted\", .bool true)]", "--passphrase=QX": "[(c!\"passphrase\", .str c!\"QX\")]", "--escrowcert=QX": "[(c!\"escrowcert\", .str c!\"QX\")]", "--backuppassphrase": "[(c!\"backuppassphrase\", .bool true)]", "--nolvm": "[(c!\"type\", .int 0)]", "--type=lvm": "[(c!\"type\", .int 2)]", "--type=btrfs": "[(c!\"type\", .int 1)]", "--type=plain": "[(c!\"type\", .int 0)]", "--type=partition": "[(c!\"type\", .int 0)]", "--cipher=QX": "[(c!\"cipher\", .str c!\"QX\")]", "--type=thinp": "[(c!\"type\", .int 3)]", "--fstype=QX": "[(c!\"fstype\", .str c!\"QX\")]", "--nohome": "[(c!\"nohome\", .bool true)]", "--noboot": "[(c!\"noboot\", .bool true)]", "--noswap": "[(c!\"noswap\", .bool true)]", "--luks-version=QX": "[(c!\"luks_version\", .str c!\"QX\")]", "--pbkdf=QX": "[(c!\"pbkdf\", .str c!\"QX\")]", "--pbkdf-memory=42": "[(c!\"pbkdf_memory\", .int 42)]", "--pbkdf-time=42": "[(c!\"pbkdf_time\", .int 42)]", "--pbkdf-iterations=42": "[(c!\"pbkdf_iterations\", .int 42)]"}}, "379": {"cmd": "bootloader", "cls": "F29_Bootloader.cls", "vs": [27000, 30000, 31000, 32000, 33000], "base": "", "bi": 0, "lines": ["--append=QX", "--location=mbr", "--location=partition", "--location=none", "--location=boot", "--lba32", "--password=QX", "--md5pass=QX", "--upgrade", "--driveorder=QX", "--timeout=42", "--default=QX", "--iscrypted", "--boot-drive=QX", "--leavebootorder", "--extlinux", "--disabled", "--nombr", "--linear", "--nolinear", "--useLilo", "--hvargs=QX"], "ok": true, "kind": "P", "d": "[(c!\"driveorder\", .list []), (c!\"appendLine\", .str c!\"\"), (c!\"location\", .str c!\"mbr\"), (c!\"md5pass\", .str c!\"\"), (c!\"password\", .str c!\"\"), (c!\"upgrade\", .bool false), (c!\"timeout\", .none), (c!\"default\", .str c!\"\"), (c!\"isCrypted\", .bool false), (c!\"bootDrive\", .str c!\"\"), (c!\"leavebootorder\", .bool false), (c!\"extlinux\", .bool false), (c!\"disabled\", .bool false), (c!\"nombr\", .bool false)]", "bsets": "[(c!\"location\", .str c!\"mbr\")]", "rows": {"--append=QX": "[(c!\"appendLine\", .str c!\"QX\")]", "--location=mbr": "[]", "--location=partition": "[(c!\"location\", .str c!\"partition\")]", "--location=none": "[(c!\"location\", .str c!\"none\")]", "--location=boot": "[(c!\"location\", .str c!\"boot\")]", "--lba32": "REFUSED", "--password=QX": "[(c!\"password\", .str c!\"QX\")]", "--md5pass=QX": "[(c!\"password\", .str c!\"QX\"), (c!\"isCrypted\", .bool true)]", "--upgrade": "[(c!\"upgrade\", .bool true)]", "--driveorder=QX": "[(c!\"driveorder\", .list [c!\"QX\"])]", "--timeout=42": "[(c!\"timeout\", .int 42)]", "--default=QX": "[(c!\"default\", .str c!\"QX\")]", "--iscrypted": "[(c!\"isCrypted\", .bool true)]", "--boot-drive=QX": "[(c!\"bootDrive\", .str c!\"QX\")]", "--leavebootorder": "[(c!\"leavebootorder\", .bool true)]", "--extlinux": "[(c!\"extlinux\", .bool true)]", "--disabled": "[(c!\"disabled\", .bool true)]", "--nombr": "[(c!\"nombr\", .bool true)]", "--linear": "REFUSED", "--nolinear": "REFUSED", "--useLilo": "REFUSED", "--hvargs=QX": "REFUSED"}}, "380": {"cmd": "module", "cls": "F29_Module.cls F29_ModuleData.cls", "vs": [27000, 30000], "base": "--name=m", "bi": 0, "lines": ["--name=QX", "--stream=QX", "--disable"], "ok": true, "kind": "L", "d": "[(c!\"lineno\", .int 7), (c!\"name\", .str c!\"m\"), (c!\"stream\", .str c!\"\")]", "bsets": "[]", "rows": {"--name=QX": "[(c!\"name\", .str c!\"QX\")]", "--stream=QX": "[(c!\"stream\", .str c!\"QX\")]", "--disable": "REFUSED"}}, "381": {"cmd": "ignoredisk", "cls": "F29_IgnoreDisk.cls", "vs": [27000, 30000, 31000, 32000, 33000, 26100], "base": "--drives=a", "bi": 0, "lines": ["--drives=QX", "--only-use=QX", "--interactive"], "ok": true, "kind": "P", "d": "[(c!\"ignoredisk\", .list [c!\"a\"]), (c!\"onlyuse\", .list []), (c!\"interactive\", .bool false)]", "bsets": "[(c!\"ignoredisk\", .list [c!\"a\"])]", "rows": {"--drives=QX": "[(c!\"ignoredisk\", .list [c!\"QX\"])]", "--only-use=QX": "REFUSED", "--interactive": "[(c!\"interactive\", .bool true)]"}}, "382": {"cmd": "ignoredisk", "cls": "F29_IgnoreDisk.cls", "vs": [27000, 30000, 31000, 32000, 33000, 26100], "base": "--only-use=a", "bi": 1, "lines": ["--drives=QX", "--only-use=QX"], "ok": true, "kind": "P", "d": "[(c!\"ignoredisk\", .list []), (c!\"onlyuse\", .list [c!\"a\"]), (c!\"interactive\", .bool false)]", "bsets": "[(c!\"onlyuse\", .list [c!\"a\"])]", "rows": {"--drives=QX": "REFUSED", "--only-use=QX": "[(c!\"onlyuse\", .list [c!\"QX\"])]"}}, "383": {"cmd": "ignoredisk", "cls": "F29_IgnoreDisk.cls", "vs": [27000, 30000, 31000, 32000, 33000, 26100], "base": "--interactive", "bi": 2, "lines": ["--only-use=QX"], "ok": false}, "384": {"cmd": "logvol", "cls": "F29_LogVol.cls F29_LogVolData.cls", "vs": [27000, 30000, 31000, 32000, 33000, 34000], "base": "/x --name=n --vgname=g --size=1", "bi": 0, "lines": ["--fstype=QX", "--grow", "--maxsize=42", "--name=QX", "--noformat", "--percent=42", "--recommended", "--size=42", "--useexisting", "--vgname=QX", "--fsoptions=QX", "--bytes-per-inode=QX", "--fsprofile=QX", "--encrypted", "--passphrase=QX", "--escrowcert=QX", "--backuppassphrase", "--label=QX", "--resize", "--hibernation", "--cipher=QX", "--thinpool", "--thin", "--poolname=QX", "--chunksize=42", "--metadatasize=42", "--profile=QX", "--cachesize=42", "--cachemode=QX", "--cachepvs=QX", "--mkfsoptions=QX", "--luks-version=QX", "--pbkdf=QX", "--pbkdf-memory=42", "--pbkdf-time=42", "--pbkdf-iterations=42", "--bytes-per-inode=42"], "ok": true, "kind": "L", "d": "[(c!\"lineno\", .int 7), (c!\"fstype\", .str c!\"\"), (c!\"grow\", .bool false), (c!\"maxSizeMB\", .int 0), (c!\"name\", .str c!\"n\"), (c!\"format\", .bool true), (c!\"percent\", .int 0), (c!\"recommended\", .bool false), (c!\"size\", .int 1), (c!\"preexist\", .bool false), (c!\"vgname\", .str c!\"g\"), (c!\"mountpoint\", .str c!\"/x\"), (c!\"fsopts\", .str c!\"\"), (c!\"fsprofile\", .str c!\"\"), (c!\"encrypted\", .bool false), (c!\"passphrase\", .str c!\"\"), (c!\"escrowcert\", .str c!\"\"), (c!\"backuppassphrase\", .bool false), (c!\"label\", .str c!\"\"), (c!\"resize\", .bool false), (c!\"hibernation\", .bool false), (c!\"cipher\", .str c!\"\"), (c!\"thin_pool\", .bool false), (c!\"thin_volume\", .bool false), (c!\"pool_name\", .str c!\"\"), (c!\"chunk_size\", .none), (c!\"metadata_size\", .none), (c!\"profile\", .str c!\"\"), (c!\"cache_size\", .int 0), (c!\"cache_mode\", .str c!\"\"), (c!\"cache_pvs\", .list []), (c!\"mkfsopts\", .str c!\"\"), (c!\"luks_version\", .str c!\"\"), (c!\"pbkdf\", .str c!\"\"), (c!\"pbkdf_memory\", .int 0), (c!\"pbkdf_time\", .int 0), (c!\"pbkdf_iterations\", .int 0), (c!\"mntpoint\", .list [c!\"/x\"])]", "bsets": "[]", "rows": {"--fstype=QX": "[(c!\"fstype\", .str c!\"QX\")]", "--grow": "[(c!\"grow\", .bool true)]", "--maxsize=42": "[(c!\"maxSizeMB\", .int 42)]", "--name=QX": "[(c!\"name\", .str c!\"QX\")]", "--noformat": "[(c!\"format\", .bool false), (c!\"preexist\", .bool true)]", "--percent=42": "REFUSED", "--recommended": "[(c!\"recommended\", .bool true)]", "--size=42": "[(c!\"size\", .int 42)]", "--useexisting": "[(c!\"preexist\", .bool true)]", "--vgname=QX": "[(c!\"vgname\", .str c!\"QX\")]", "--fsoptions=QX": "[(c!\"fsopts\", .str c!\"QX\")]", "--bytes-per-inode=QX": "REFUSED", "--fsprofile=QX": "[(c!\"fsprofile\", .str c!\"QX\")]", "--encrypted": "[(c!\"encrypted\", .bool true)]", "--passphrase=QX": "[(c!\"passphrase\", .str c!\"QX\")]", "--escrowcert=QX": "[(c!\"escrowcert\", .str c!\"QX\")]", "--backuppassphrase": "[(c!\"backuppassphrase\", .bool true)]", "--label=QX": "[(c!\"label\", .str c!\"QX\")]", "--resize": "REFUSED", "--hibernation": "[(c!\"hibernation\", .bool true)]", "--cipher=QX": "[(c!\"cipher\", .str c!\"QX\")]", "--thinpool": "[(c!\"thin_pool\", .bool true)]", "--thin": "REFUSED", "--poolname=QX": "[(c!\"pool_name\", .str c!\"QX\")]", "--chunksize=42": "REFUSED", "--metadatasize=42": "REFUSED", "--profile=QX": "[(c!\"profile\", .str c!\"QX\")]", "--cachesize=42": "REFUSED", "--cachemode=QX": "REFUSED", "--cachepvs=QX": "REFUSED", "--mkfsoptions=QX": "[(c!\"mkfsopts\", .str c!\"QX\")]", "--luks-version=QX": "[(c!\"luks_version\", .str c!\"QX\")]", "--pbkdf=QX": "[(c!\"pbkdf\", .str c!\"QX\")]", "--pbkdf-memory=42": "[(c!\"pbkdf_memory\", .int 42)]", "--pbkdf-time=42": "[(c!\"pbkdf_time\", .int 42)]", "--pbkdf-iterations=42": "[(c!\"pbkdf_iterations\", .int 42)]", "--bytes-per-inode=42": "REFUSED"}}, "385": {"cmd": "logvol", "cls": "F29_LogVol.cls F29_LogVolData.cls", "vs": [27000, 30000, 31000, 32000, 33000, 34000], "base": "/x --name=n --vgname=g --useexisting", "bi": 1, "lines": ["--size=42", "--resize", "--noformat", "--fstype=ext4"], "ok": true, "kind": "L", "d": "[(c!\"lineno\", .int 7), (c!\"fstype\", .str c!\"\"), (c!\"grow\", .bool false), (c!\"maxSizeMB\", .int 0), (c!\"name\", .str c!\"n\"), (c!\"format\", .bool true), (c!\"percent\", .int 0), (c!\"recommended\", .bool false), (c!\"size\", .none), (c!\"preexist\", .bool true), (c!\"vgname\", .str c!\"g\"), (c!\"mountpoint\", .str c!\"/x\"), (c!\"fsopts\", .str c!\"\"), (c!\"fsprofile\", .str c!\"\"), (c!\"encrypted\", .bool false), (c!\"passphrase\", .str c!\"\"), (c!\"escrowcert\", .str c!\"\"), (c!\"backuppassphrase\", .bool false), (c!\"label\", .str c!\"\"), (c!\"resize\", .bool false), (c!\"hibernation\", .bool false), (c!\"cipher\", .str c!\"\"), (c!\"thin_pool\", .bool false), (c!\"thin_volume\", .bool false), (c!\"pool_name\", .str c!\"\"), (c!\"chunk_size\", .none), (c!\"metadata_size\", .none), (c!\"profile\", .str c!\"\"), (c!\"cache_size\", .int 0), (c!\"cache_mode\", .str c!\"\"), (c!\"cache_pvs\", .list []), (c!\"mkfsopts\", .str c!\"\"), (c!\"luks_version\", .str c!\"\"), (c!\"pbkdf\", .str c!\"\"), (c!\"pbkdf_memory\", .int 0), (c!\"pbkdf_time\", .int 0), (c!\"pbkdf_iterations\", .int 0), (c!\"mntpoint\", .list [c!\"/x\"])]", "bsets": "[]", "rows": {"--size=42": "[(c!\"size\", .int 42)]", "--resize": "REFUSED", "--noformat": "[(c!\"format\", .bool false)]", "--fstype=ext4": "[(c!\"fstype\", .str c!\"ext4\")]"}}, "386": {"cmd": "logvol", "cls": "F29_LogVol.cls F29_LogVolData.cls", "vs": [27000, 30000, 31000, 32000, 33000, 34000], "base": "/x --name=n --vgname=g", "bi": 2, "lines": ["--percent=42", "--useexisting", "--noformat"], "ok": false}, "387": {"cmd": "logvol", "cls": "F29_LogVol.cls F29_LogVolData.cls", "vs": [27000, 30000, 31000, 32000, 33000, 34000], "base": "/x --name=n --vgname=g --size=1 --poolname=p", "bi": 3, "lines": ["--thin", "--thinpool", "--label=QX"], "ok": true, "kind": "L", "d": "[(c!\"lineno\", .int 7), (c!\"fstype\", .str c!\"\"), (c!\"grow\", .bool false), (c!\"maxSizeMB\", .int 0), (c!\"name\", .str c!\"n\"), (c!\"format\", .bool true), (c!\"percent\", .int 0), (c!\"recommended\", .bool false), (c!\"size\", .int 1), (c!\"preexist\", .bool false), (c!\"vgname\", .str c!\"g\"), (c!\"mountpoint\", .str c!\"/x\"), (c!\"fsopts\", .str c!\"\"), (c!\"fsprofile\", .str c!\"\"), (c!\"encrypted\", .bool false), (c!\"passphrase\", .str c!\"\"), (c!\"escrowcert\", .str c!\"\"), (c!\"backuppassphrase\", .bool false), (c!\"label\", .str c!\"\"), (c!\"resize\", .bool false), (c!\"hibernation\", .bool false), (c!\"cipher\", .str c!\"\"), (c!\"thin_pool\", .bool false), (c!\"thin_volume\", .bool false), (c!\"pool_name\", .str c!\"p\"), (c!\"chunk_size\", .none), (c!\"metadata_size\", .none), (c!\"profile\", .str c!\"\"), (c!\"cache_size\", .int 0), (c!\"cache_mode\", .str c!\"\"), (c!\"cache_pvs\", .list []), (c!\"mkfsopts\", .str c!\"\"), (c!\"luks_version\", .str c!\"\"), (c!\"pbkdf\", .str c!\"\"), (c!\"pbkdf_memory\", .int 0), (c!\"pbkdf_time\", .int 0), (c!\"pbkdf_iterations\", .int 0), (c!\"mntpoint\", .list [c!\"/x\"])]", "bsets": "[]", "rows": {"--thin": "[(c!\"thin_volume\", .bool true)]", "--thinpool": "[(c!\"thin_pool\", .bool true)]", "--label=QX": "[(c!\"label\", .str c!\"QX\")]"}}, "388": {"cmd": "logvol", "cls": "F29_LogVol.cls F29_LogVolData.cls", "vs": [27000, 30000, 31000, 32000, 33000, 34000], "base": "none --name=n --vgname=g --size=1 --thinpool", "bi": 4, "lines": ["--chunksize=42", "--metadatasize=42", "--profile=QX", "--grow"], "ok": true, "kind": "L", "d": "[(c!\"lineno\", .int 7), (c!\"fstype\", .str c!\"\"), (c!\"grow\", .bool false), (c!\"maxSizeMB\", .int 0), (c!\"name\", .str c!\"n\"), (c!\"format\", .bool true), (c!\"percent\", .int 0), (c!\"recommended\", .bool false), (c!\"size\", .int 1), (c!\"preexist\", .bool false), (c!\"vgname\", .str c!\"g\"), (c!\"mountpoint\", .str c!\"none\"), (c!\"fsopts\", .str c!\"\"), (c!\"fsprofile\", .str c!\"\"), (c!\"encrypted\", .bool false), (c!\"passphrase\", .str c!\"\"), (c!\"escrowcert\", .str c!\"\"), (c!\"backuppassphrase\", .bool false), (c!\"label\", .str c!\"\"), (c!\"resize\", .bool false), (c!\"hibernation\", .bool false), (c!\"cipher\", .str c!\"\"), (c!\"thin_pool\", .bool true), (c!\"thin_volume\", .bool false), (c!\"pool_name\", .str c!\"\"), (c!\"chunk_size\", .none), (c!\"metadata_size\", .none), (c!\"profile\", .str c!\"\"), (c!\"cache_size\", .int 0), (c!\"cache_mode\", .str c!\"\"), (c!\"cache_pvs\", .list []), (c!\"mkfsopts\", .str c!\"\"), (c!\"luks_version\", .str c!\"\"), (c!\"pbkdf\", .str c!\"\"), (c!\"pbkdf_memory\", .int 0), (c!\"pbkdf_time\", .int 0), (c!\"pbkdf_iterations\", .int 0), (c!\"mntpoint\", .list [c!\"none\"])]", "bsets": "[]", "rows": {"--chunksize=42": "[(c!\"chunk_size\", .int 42)]", "--metadatasize=42": "[(c!\"metadata_size\", .int 42)]", "--profile=QX": "[(c!\"profile\", .str c!\"QX\")]", "--grow": "[(c!\"grow\", .bool true)]"}}, "389": {"cmd": "logvol", "cls": "F29_LogVol.cls F29_LogVolData.cls", "vs": [27000, 30000, 31000, 32000, 33000, 34000], "base": "/x --name=n --vgname=g --size=1 --cachepvs=a --cachesize=5", "bi": 5, "lines": ["--cachemode=writeback", "--cachemode=writethrough"], "ok": true, "kind": "L", "d": "[(c!\"lineno\", .int 7), (c!\"fstype\", .str c!\"\"), (c!\"grow\", .bool false), (c!\"maxSizeMB\", .int 0), (c!\"name\", .str c!\"n\"), (c!\"format\", .bool true), (c!\"percent\", .int 0), (c!\"recommended\", .bool false), (c!\"size\", .int 1), (c!\"preexist\", .bool false), (c!\"vgname\", .str c!\"g\"), (c!\"mountpoint\", .str c!\"/x\"), (c!\"fsopts\", .str c!\"\"), (c!\"fsprofile\", .str c!\"\"), (c!\"encrypted\", .bool false), (c!\"passphrase\", .str c!\"\"), (c!\"escrowcert\", .str c!\"\"), (c!\"backuppassphrase\", .bool false), (c!\"label\", .str c!\"\"), (c!\"resize\", .bool false), (c!\"hibernation\", .bool false), (c!\"cipher\", .str c!\"\"), (c!\"thin_pool\", .bool false), (c!\"thin_volume\", .bool false), (c!\"pool_name\", .str c!\"\"), (c!\"chunk_size\", .none), (c!\"metadata_size\", .none), (c!\"profile\", .str c!\"\"), (c!\"cache_size\", .int 5), (c!\"cache_mode\", .str c!\"\"), (c!\"cache_pvs\", .list [c!\"a\"]), (c!\"mkfsopts\", .str c!\"\"), (c!\"luks_version\", .str c!\"\"), (c!\"pbkdf\", .str c!\"\"), (c!\"pbkdf_memory\", .int 0), (c!\"pbkdf_time\", .int 0), (c!\"pbkdf_iterations\", .int 0), (c!\"mntpoint\", .list [c!\"/x\"])]", "bsets": "[]", "rows": {"--cachemode=writeback": "[(c!\"cache_mode\", .str c!\"writeback\")]", "--cachemode=writethrough": "[(c!\"cache_mode\", .str c!\"writethrough\")]"}}, "390": {"cmd": "part", "cls": "F29_Partition.cls F29_PartData.cls", "vs": [27000, 30000, 31000, 32000, 33000], "base": "/x --size=1", "bi": 0, "lines": ["--active", "--asprimary", "--start=42", "--end=42", "--fstype=QX", "--type=QX", "--grow", "--maxsize=42", "--noformat", "--onbiosdisk=QX", "--ondisk=QX", "--ondrive=QX", "--onpart=QX", "--usepart=QX", "--recommended", "--size=42", "--fsoptions=QX", "--label=QX", "--bytes-per-inode=QX", "--fsprofile=QX", "--encrypted", "--passphrase=QX", "--start=QX", "--end=QX", "--escrowcert=QX", "--backuppassphrase", "--resize", "--hibernation", "--cipher=QX", "--mkfsoptions=QX", "--luks-version=QX", "--pbkdf=QX", "--pbkdf-memory=42", "--pbkdf-time=42", "--pbkdf-iterations=42", "--bytes-per-inode=42"], "ok": true, "kind": "L", "d": "[(c!\"lineno\", .int 7), (c!\"active\", .bool false), (c!\"primOnly\", .bool false), (c!\"fstype\", .str c!\"\"), (c!\"grow\", .bool false), (c!\"maxSizeMB\", .int 0), (c!\"format\", .bool true), (c!\"onbiosdisk\", .str c!\"\"), (c!\"disk\", .str c!\"\"), (c!\"onPart\", .str c!\"\"), (c!\"recommended\", .bool false), (c!\"size\", .int 1), (c!\"mountpoint\", .str c!\"/x\"), (c!\"fsopts\", .str c!\"\"), (c!\"label\", .str c!\"\"), (c!\"fsprofile\", .str c!\"\"), (c!\"encrypted\", .bool false), (c!\"passphrase\", .str c!\"\"), (c!\"escrowcert\", .str c!\"\"), (c!\"backuppassphrase\", .bool false), (c!\"resize\", .bool false), (c!\"hibernation\", .bool false), (c!\"cipher\", .str c!\"\"), (c!\"mkfsopts\", .str c!\"\"), (c!\"luks_version\", .str c!\"\"), (c!\"pbkdf\", .str c!\"\"), (c!\"pbkdf_memory\", .int 0), (c!\"pbkdf_time\", .int 0), (c!\"pbkdf_iterations\", .int 0), (c!\"mntpoint\", .list [c!\"/x\"])]", "bsets": "[]", "rows": {"--active": "[(c!\"active\", .bool true)]", "--asprimary": "[(c!\"primOnly\", .bool true)]", "--start=42": "REFUSED", "--end=42": "REFUSED", "--fstype=QX": "[(c!\"fstype\", .str c!\"QX\")]", "--type=QX": "[(c!\"fstype\", .str c!\"QX\")]", "--grow": "[(c!\"grow\", .bool true)]", "--maxsize=42": "[(c!\"maxSizeMB\", .int 42)]", "--noformat": "[(c!\"format\", .bool false)]", "--onbiosdisk=QX": "[(c!\"onbiosdisk\", .str c!\"QX\")]", "--ondisk=QX": "[(c!\"disk\", .str c!\"QX\")]", "--ondrive=QX": "[(c!\"disk\", .str c!\"QX\")]", "--onpart=QX": "[(c!\"onPart\", .str c!\"QX\")]", "--usepart=QX": "[(c!\"onPart\", .str c!\"QX\")]", "--recommended": "[(c!\"recommended\", .bool true)]", "--size=42": "[(c!\"size\", .int 42)]", "--fsoptions=QX": "[(c!\"fsopts\", .str c!\"QX\")]", "--label=QX": "[(c!\"label\", .str c!\"QX\")]", "--bytes-per-inode=QX": "REFUSED", "--fsprofile=QX": "[(c!\"fsprofile\", .str c!\"QX\")]", "--encrypted": "[(c!\"encrypted\", .bool true)]", "--passphrase=QX": "[(c!\"passphrase\", .str c!\"QX\")]", "--start=QX": "REFUSED", "--end=QX": "REFUSED", "--escrowcert=QX": "[(c!\"escrowcert\", .str c!\"QX\")]", "--backuppassphrase": "[(c!\"backuppassphrase\", .bool true)]", "--resize": "REFUSED", "--hibernation": "[(c!\"hibernation\", .bool true)]", "--cipher=QX": "[(c!\"cipher\", .str c!\"QX\")]", "--mkfsoptions=QX": "[(c!\"mkfsopts\", .str c!\"QX\")]", "--luks-version=QX": "[(c!\"luks_version\", .str c!\"QX\")]", "--pbkdf=QX": "[(c!\"pbkdf\", .str c!\"QX\")]", "--pbkdf-memory=42": "[(c!\"pbkdf_memory\", .int 42)]", "--pbkdf-time=42": "[(c!\"pbkdf_time\", .int 42)]", "--pbkdf-iterations=42": "[(c!\"pbkdf_iterations\", .int 42)]", "--bytes-per-inode=42": "REFUSED"}}, "391": {"cmd": "part", "cls": "F29_Partition.cls F29_PartData.cls", "vs": [27000, 30000, 31000, 32000, 33000], "base": "/x --onpart=sda1 --size=1", "bi": 1, "lines": ["--resize", "--noformat"], "ok": true, "kind": "L", "d": "[(c!\"lineno\", .int 7), (c!\"active\", .bool false), (c!\"primOnly\", .bool false), (c!\"fstype\", .str c!\"\"), (c!\"grow\", .bool false), (c!\"maxSizeMB\", .int 0), (c!\"format\", .bool true), (c!\"onbiosdisk\", .str c!\"\"), (c!\"disk\", .str c!\"\"), (c!\"onPart\", .str c!\"sda1\"), (c!\"recommended\", .bool false), (c!\"size\", .int 1), (c!\"mountpoint\", .str c!\"/x\"), (c!\"fsopts\", .str c!\"\"), (c!\"label\", .str c!\"\"), (c!\"fsprofile\", .str c!\"\"), (c!\"encrypted\", .bool false), (c!\"passphrase\", .str c!\"\"), (c!\"escrowcert\", .str c!\"\"), (c!\"backuppassphrase\", .bool false), (c!\"resize\", .bool false), (c!\"hibernation\", .bool false), (c!\"cipher\", .str c!\"\"), (c!\"mkfsopts\", .str c!\"\"), (c!\"luks_version\", .str c!\"\"), (c!\"pbkdf\", .str c!\"\"), (c!\"pbkdf_memory\", .int 0), (c!\"pbkdf_time\", .int 0), (c!\"pbkdf_iterations\", .int 0), (c!\"mntpoint\", .list [c!\"/x\"])]", "bsets": "[]", "rows": {"--resize": "[(c!\"resize\", .bool true)]", "--noformat": "[(c!\"format\", .bool false)]"}}, "392": {"cmd": "partition", "cls": "F29_Partition.cls F29_PartData.cls", "vs": [27000, 30000, 31000, 32000, 33000], "base": "/x --size=1", "bi": 0, "lines": ["--active", "--asprimary", "--start=42", "--end=42", "--fstype=QX", "--type=QX", "--grow", "--maxsize=42", "--noformat", "--onbiosdisk=QX", "--ondisk=QX", "--ondrive=QX", "--onpart=QX", "--usepart=QX", "--recommended", "--size=42", "--fsoptions=QX", "--label=QX", "--bytes-per-inode=QX", "--fsprofile=QX", "--encrypted", "--passphrase=QX", "--start=QX", "--end=QX", "--escrowcert=QX", "--backuppassphrase", "--resize", "--hibernation", "--cipher=QX", "--mkfsoptions=QX", "--luks-version=QX", "--pbkdf=QX", "--pbkdf-memory=42", "--pbkdf-time=42", "--pbkdf-iterations=42", "--bytes-per-inode=42"], "ok": true, "kind": "L", "d": "[(c!\"lineno\", .int 7), (c!\"active\", .bool false), (c!\"primOnly\", .bool false), (c!\"fstype\", .str c!\"\"), (c!\"grow\", .bool false), (c!\"maxSizeMB\", .int 0), (c!\"format\", .bool true), (c!\"onbiosdisk\", .str c!\"\"), (c!\"disk\", .str c!\"\"), (c!\"onPart\", .str c!\"\"), (c!\"recommended\", .bool false), (c!\"size\", .int 1), (c!\"mountpoint\", .str c!\"/x\"), (c!\"fsopts\", .str c!\"\"), (c!\"label\", .str c!\"\"), (c!\"fsprofile\", .str c!\"\"), (c!\"encrypted\", .bool false), (c!\"passphrase\", .str c!\"\"), (c!\"escrowcert\", .str c!\"\"), (c!\"backuppassphrase\", .bool false), (c!\"resize\", .bool false), (c!\"hibernation\", .bool false), (c!\"cipher\", .str c!\"\"), (c!\"mkfsopts\", .str c!\"\"), (c!\"luks_version\", .str c!\"\"), (c!\"pbkdf\", .str c!\"\"), (c!\"pbkdf_memory\", .int 0), (c!\"pbkdf_time\", .int 0), (c!\"pbkdf_iterations\", .int 0), (c!\"mntpoint\", .list [c!\"/x\"])]", "bsets": "[]", "rows": {"--active": "[(c!\"active\", .bool true)]", "--asprimary": "[(c!\"primOnly\", .bool true)]", "--start=42": "REFUSED", "--end=42": "REFUSED", "--fstype=QX": "[(c!\"fstype\", .str c!\"QX\")]", "--type=QX": "[(c!\"fstype\", .str c!\"QX\")]", "--grow": "[(c!\"grow\", .bool true)]", "--maxsize=42": "[(c!\"maxSizeMB\", .int 42)]", "--noformat": "[(c!\"format\", .bool false)]", "--onbiosdisk=QX": "[(c!\"onbiosdisk\", .str c!\"QX\")]", "--ondisk=QX": "[(c!\"disk\", .str c!\"QX\")]", "--ondrive=QX": "[(c!\"disk\", .str c!\"QX\")]", "--onpart=QX": "[(c!\"onPart\", .str c!\"QX\")]", "--usepart=QX": "[(c!\"onPart\", .str c!\"QX\")]", "--recommended": "[(c!\"recommended\", .bool true)]", "--size=42": "[(c!\"size\", .int 42)]", "--fsoptions=QX": "[(c!\"fsopts\", .str c!\"QX\")]", "--label=QX": "[(c!\"label\", .str c!\"QX\")]", "--bytes-per-inode=QX": "REFUSED", "--fsprofile=QX": "[(c!\"fsprofile\", .str c!\"QX\")]", "--encrypted": "[(c!\"encrypted\", .bool true)]", "--passphrase=QX": "[(c!\"passphrase\", .str c!\"QX\")]", "--start=QX": "REFUSED", "--end=QX": "REFUSED", "--escrowcert=QX": "[(c!\"escrowcert\", .str c!\"QX\")]", "--backuppassphrase": "[(c!\"backuppassphrase\", .bool true)]", "--resize": "REFUSED", "--hibernation": "[(c!\"hibernation\", .bool true)]", "--cipher=QX": "[(c!\"cipher\", .str c!\"QX\")]", "--mkfsoptions=QX": "[(c!\"mkfsopts\", .str c!\"QX\")]", "--luks-version=QX": "[(c!\"luks_version\", .str c!\"QX\")]", "--pbkdf=QX": "[(c!\"pbkdf\", .str c!\"QX\")]", "--pbkdf-memory=42": "[(c!\"pbkdf_memory\", .int 42)]", "--pbkdf-time=42": "[(c!\"pbkdf_time\", .int 42)]", "--pbkdf-iterations=42": "[(c!\"pbkdf_iterations\", .int 42)]", "--bytes-per-inode=42": "REFUSED"}}, "393": {"cmd": "partition", "cls": "F29_Partition.cls F29_PartData.cls", "vs": [27000, 30000, 31000, 32000, 33000], "base": "/x --onpart=sda1 --size=1", "bi": 1, "lines": ["--resize", "--noformat"], "ok": true, "kind": "L", "d": "[(c!\"lineno\", .int 7), (c!\"active\", .bool false), (c!\"primOnly\", .bool false), (c!\"fstype\", .str c!\"\"), (c!\"grow\", .bool false), (c!\"maxSizeMB\", .int 0), (c!\"format\", .bool true), (c!\"onbiosdisk\", .str c!\"\"), (c!\"disk\", .str c!\"\"), (c!\"onPart\", .str c!\"sda1\"), (c!\"recommended\", .bool false), (c!\"size\", .int 1), (c!\"mountpoint\", .str c!\"/x\"), (c!\"fsopts\", .str c!\"\"), (c!\"label\", .str c!\"\"), (c!\"fsprofile\", .str c!\"\"), (c!\"encrypted\", .bool false), (c!\"passphrase\", .str c!\"\"), (c!\"escrowcert\", .str c!\"\"), (c!\"backuppassphrase\", .bool false), (c!\"resize\", .bool false), (c!\"hibernation\", .bool false), (c!\"cipher\", .str c!\"\"), (c!\"mkfsopts\", .str c!\"\"), (c!\"luks_version\", .str c!\"\"), (c!\"pbkdf\", .str c!\"\"), (c!\"pbkdf_memory\", .int 0), (c!\"pbkdf_time\", .int 0), (c!\"pbkdf_iterations\", .int 0), (c!\"mntpoint\", .list [c!\"/x\"])]", "bsets": "[]", "rows": {"--resize": "[(c!\"resize\", .bool true)]", "--noformat": "[(c!\"format\", .bool false)]"}}, "394": {"cmd": "raid", "cls": "F29_Raid.cls F29_RaidData.cls", "vs": [27000, 30000, 31000, 32000, 33000, 34000], "base": "/x --device=1 --level=RAID1 raid.1 raid.2", "bi": 0, "lines": ["--device=QX", "--fstype=QX", "--level=RAID0", "--level=0", "--level=RAID1", "--level=1", "--level=RAID5", "--level=5", "--level=RAID6", "--level=6", "--level=RAID10", "--level=10", "--noformat", "--spares=42", "--useexisting", "--fsoptions=QX", "--bytes-per-inode=QX", "--fsprofile=QX", "--encrypted", "--passphrase=QX", "--escrowcert=QX", "--backuppassphrase", "--level=RAID4", "--level=4", "--label=QX", "--cipher=QX", "--mkfsoptions=QX", "--chunksize=42", "--luks-version=QX", "--pbkdf=QX", "--pbkdf-memory=42", "--pbkdf-time=42", "--pbkdf-iterations=42", "--bytes-per-inode=42"], "ok": true, "kind": "L", "d": "[(c!\"lineno\", .int 7), (c!\"device\", .str c!\"1\"), (c!\"fstype\", .str c!\"\"), (c!\"level\", .str c!\"RAID1\"), (c!\"format\", .bool true), (c!\"spares\", .int 0), (c!\"preexist\", .bool false), (c!\"mountpoint\", .str c!\"/x\"), (c!\"members\", .list [c!\"raid.1\", c!\"raid.2\"]), (c!\"fsopts\", .str c!\"\"), (c!\"fsprofile\", .str c!\"\"), (c!\"encrypted\", .bool false), (c!\"passphrase\", .str c!\"\"), (c!\"escrowcert\", .str c!\"\"), (c!\"backuppassphrase\", .bool false), (c!\"label\", .str c!\"\"), (c!\"cipher\", .str c!\"\"), (c!\"mkfsopts\", .str c!\"\"), (c!\"chunk_size\", .none), (c!\"luks_version\", .str c!\"\"), (c!\"pbkdf\", .str c!\"\"), (c!\"pbkdf_memory\", .int 0), (c!\"pbkdf_time\", .int 0), (c!\"pbkdf_iterations\", .int 0), (c!\"mntpoint\", .list [c!\"/x\"]), (c!\"partitions\", .list [c!\"raid.1\", c!\"raid.2\"])]", "bsets": "[]", "rows": {"--device=QX": "[(c!\"device\", .str c!\"QX\")]", "--fstype=QX": "[(c!\"fstype\", .str c!\"QX\")]", "--level=RAID0": "[(c!\"level\", .str c!\"RAID0\")]", "--level=0": "[(c!\"level\", .str c!\"RAID0\")]", "--level=RAID1": "[]", "--level=1": "[]", "--level=RAID5": "[(c!\"level\", .str c!\"RAID5\")]", "--level=5": "[(c!\"level\", .str c!\"RAID5\")]", "--level=RAID6": "[(c!\"level\", .str c!\"RAID6\")]", "--level=6": "[(c!\"level\", .str c!\"RAID6\")]", "--level=RAID10": "[(c!\"level\", .str c!\"RAID10\")]", "--level=10": "[(c!\"level\", .str c!\"RAID10\")]", "--noformat": "REFUSED", "--spares=42": "[(c!\"spares\", .int 42)]", "--useexisting": "REFUSED", "--fsoptions=QX": "[(c!\"fsopts\", .str c!\"QX\")]", "--bytes-per-inode=QX": "REFUSED", "--fsprofile=QX": "[(c!\"fsprofile\", .str c!\"QX\")]", "--encrypted": "[(c!\"encrypted\", .bool true)]", "--passphrase=QX": "[(c!\"passphrase\", .str c!\"QX\")]", "--escrowcert=QX": "[(c!\"escrowcert\", .str c!\"QX\")]", "--backuppassphrase": "[(c!\"backuppassphrase\", .bool true)]", "--level=RAID4": "[(c!\"level\", .str c!\"RAID4\")]", "--level=4": "[(c!\"level\", .str c!\"RAID4\")]", "--label=QX": "[(c!\"label\", .str c!\"QX\")]", "--cipher=QX": "[(c!\"cipher\", .str c!\"QX\")]", "--mkfsoptions=QX": "[(c!\"mkfsopts\", .str c!\"QX\")]", "--chunksize=42": "[(c!\"chunk_size\", .int 42)]", "--luks-version=QX": "[(c!\"luks_version\", .str c!\"QX\")]", "--pbkdf=QX": "[(c!\"pbkdf\", .str c!\"QX\")]", "--pbkdf-memory=42": "[(c!\"pbkdf_memory\", .int 42)]", "--pbkdf-time=42": "[(c!\"pbkdf_time\", .int 42)]", "--pbkdf-iterations=42": "[(c!\"pbkdf_iterations\", .int 42)]", "--bytes-per-inode=42": "REFUSED"}}, "395": {"cmd": "raid", "cls": "F29_Raid.cls F29_RaidData.cls", "vs": [27000, 30000, 31000, 32000, 33000, 34000], "base": "/x --device=1 --noformat", "bi": 1, "lines": ["--fstype=ext4", "--label=QX"], "ok": true, "kind": "L", "d": "[(c!\"lineno\", .int 7), (c!\"device\", .str c!\"1\"), (c!\"fstype\", .str c!\"\"), (c!\"level\", .str c!\"\"), (c!\"format\", .bool false), (c!\"spares\", .int 0), (c!\"preexist\", .bool true), (c!\"mountpoint\", .str c!\"/x\"), (c!\"members\", .list []), (c!\"fsopts\", .str c!\"\"), (c!\"fsprofile\", .str c!\"\"), (c!\"encrypted\", .bool false), (c!\"passphrase\", .str c!\"\"), (c!\"escrowcert\", .str c!\"\"), (c!\"backuppassphrase\", .bool false), (c!\"label\", .str c!\"\"), (c!\"cipher\", .str c!\"\"), (c!\"mkfsopts\", .str c!\"\"), (c!\"chunk_size\", .none), (c!\"luks_version\", .str c!\"\"), (c!\"pbkdf\", .str c!\"\"), (c!\"pbkdf_memory\", .int 0), (c!\"pbkdf_time\", .int 0), (c!\"pbkdf_iterations\", .int 0), (c!\"mntpoint\", .list [c!\"/x\"]), (c!\"partitions\", .list [])]", "bsets": "[]", "rows": {"--fstype=ext4": "[(c!\"fstype\", .str c!\"ext4\")]", "--label=QX": "[(c!\"label\", .str c!\"QX\")]"}}, "396": {"cmd": "raid", "cls": "F29_Raid.cls F29_RaidData.cls", "vs": [27000, 30000, 31000, 32000, 33000, 34000], "base": "/x --device=1 --useexisting", "bi": 2, "lines": ["--fstype=ext4", "--label=QX"], "ok": true, "kind": "L", "d": "[(c!\"lineno\", .int 7), (c!\"device\", .str c!\"1\"), (c!\"fstype\", .str c!\"\"), (c!\"level\", .str c!\"\"), (c!\"format\", .bool true), (c!\"spares\", .int 0), (c!\"preexist\", .bool true), (c!\"mountpoint\", .str c!\"/x\"), (c!\"members\", .list []), (c!\"fsopts\", .str c!\"\"), (c!\"fsprofile\", .str c!\"\"), (c!\"encrypted\", .bool false), (c!\"passphrase\", .str c!\"\"), (c!\"escrowcert\", .str c!\"\"), (c!\"backuppassphrase\", .bool false), (c!\"label\", .str c!\"\"), (c!\"cipher\", .str c!\"\"), (c!\"mkfsopts\", .str c!\"\"), (c!\"chunk_size\", .none), (c!\"luks_version\", .str c!\"\"), (c!\"pbkdf\", .str c!\"\"), (c!\"pbkdf_memory\", .int 0), (c!\"pbkdf_time\", .int 0), (c!\"pbkdf_iterations\", .int 0), (c!\"mntpoint\", .list [c!\"/x\"]), (c!\"partitions\", .list [])]", "bsets": "[]", "rows": {"--fstype=ext4": "[(c!\"fstype\", .str c!\"ext4\")]", "--label=QX": "[(c!\"label\", .str c!\"QX\")]"}}, "397": {"cmd": "raid", "cls": "F29_Raid.cls F29_RaidData.cls", "vs": [27000, 30000, 31000, 32000, 33000, 34000], "base": "/x --device=1 --level=RAID1 raid.1 raid.2 raid.3", "bi": 3, "lines": ["--device=md7", "--device=data", "--level=0", "--level=RAID5", "--level=raid6", "--level=10", "--level=linear", "--spares=1", "--spares=2"], "ok": true, "kind": "L", "d": "[(c!\"lineno\", .int 7), (c!\"device\", .str c!\"1\"), (c!\"fstype\", .str c!\"\"), (c!\"level\", .str c!\"RAID1\"), (c!\"format\", .bool true), (c!\"spares\", .int 0), (c!\"preexist\", .bool false), (c!\"mountpoint\", .str c!\"/x\"), (c!\"members\", .list [c!\"raid.1\", c!\"raid.2\", c!\"raid.3\"]), (c!\"fsopts\", .str c!\"\"), (c!\"fsprofile\", .str c!\"\"), (c!\"encrypted\", .bool false), (c!\"passphrase\", .str c!\"\"), (c!\"escrowcert\", .str c!\"\"), (c!\"backuppassphrase\", .bool false), (c!\"label\", .str c!\"\"), (c!\"cipher\", .str c!\"\"), (c!\"mkfsopts\", .str c!\"\"), (c!\"chunk_size\", .none), (c!\"luks_version\", .str c!\"\"), (c!\"pbkdf\", .str c!\"\"), (c!\"pbkdf_memory\", .int 0), (c!\"pbkdf_time\", .int 0), (c!\"pbkdf_iterations\", .int 0), (c!\"mntpoint\", .list [c!\"/x\"]), (c!\"partitions\", .list [c!\"raid.1\", c!\"raid.2\", c!\"raid.3\"])]", "bsets": "[]", "rows": {"--device=md7": "[(c!\"device\", .str c!\"7\")]", "--device=data": "[(c!\"device\", .str c!\"data\")]", "--level=0": "[(c!\"level\", .str c!\"RAID0\")]", "--level=RAID5": "[(c!\"level\", .str c!\"RAID5\")]", "--level=raid6": "[(c!\"level\", .str c!\"RAID6\")]", "--level=10": "[(c!\"level\", .str c!\"RAID10\")]", "--level=linear": "REFUSED", "--spares=1": "[(c!\"spares\", .int 1)]", "--spares=2": "[(c!\"spares\", .int 2)]"}}, "398": {"cmd": "repo", "cls": "F30_Repo.cls F30_RepoData.cls", "vs": [30000, 31000, 32000], "base": "--name=r --baseurl=b", "bi": 0, "lines": ["--name=QX", "--baseurl=QX", "--mirrorlist=QX", "--cost=42", "--excludepkgs=QX", "--includepkgs=QX", "--ignoregroups=yes", "--ignoregroups=off", "--proxy=QX", "--noverifyssl", "--install", "--metalink=QX", "--sslcacert=QX", "--sslclientcert=QX", "--sslclientkey=QX"], "ok": true, "kind": "L", "d": "[(c!\"lineno\", .int 7), (c!\"baseurl\", .str c!\"b\"), (c!\"mirrorlist\", .none), (c!\"name\", .str c!\"r\"), (c!\"cost\", .none), (c!\"includepkgs\", .list []), (c!\"excludepkgs\", .list []), (c!\"ignoregroups\", .none), (c!\"proxy\", .str c!\"\"), (c!\"noverifyssl\", .bool false), (c!\"install\", .bool false), (c!\"metalink\", .bool false), (c!\"sslcacert\", .none), (c!\"sslclientcert\", .none), (c!\"sslclientkey\", .none)]", "bsets": "[]", "rows": {"--name=QX": "[(c!\"name\", .str c!\"QX\")]", "--baseurl=QX": "[(c!\"baseurl\", .str c!\"QX\")]", "--mirrorlist=QX": "REFUSED", "--cost=42": "[(c!\"cost\", .int 42)]", "--excludepkgs=QX": "[(c!\"excludepkgs\", .list [c!\"QX\"])]", "--includepkgs=QX": "[(c!\"includepkgs\", .list [c!\"QX\"])]", "--ignoregroups=yes": "[(c!\"ignoregroups\", .bool true)]", "--ignoregroups=off": "[(c!\"ignoregroups\", .bool false)]", "--proxy=QX": "[(c!\"proxy\", .str c!\"QX\")]", "--noverifyssl": "[(c!\"noverifyssl\", .bool true)]", "--install": "[(c!\"install\", .bool true)]", "--metalink=QX": "REFUSED", "--sslcacert=QX": "[(c!\"sslcacert\", .str c!\"QX\")]", "--sslclientcert=QX": "[(c!\"sslclientcert\", .str c!\"QX\")]", "--sslclientkey=QX": "[(c!\"sslclientkey\", .str c!\"QX\")]"}}, "399": {"cmd": "repo", "cls": "F30_Repo.cls F30_RepoData.cls", "vs": [30000, 31000, 32000], "base": "--name=r --mirrorlist=m", "bi": 1, "lines": ["--baseurl=QX", "--metalink=QX"], "ok": true, "kind": "L", "d": "[(c!\"lineno\", .int 7), (c!\"baseurl\", .str c!\"\"), (c!\"mirrorlist\", .str c!\"m\"), (c!\"name\", .str c!\"r\"), (c!\"cost\", .none), (c!\"includepkgs\", .list []), (c!\"excludepkgs\", .list []), (c!\"ignoregroups\", .none), (c!\"proxy\", .str c!\"\"), (c!\"noverifyssl\", .bool false), (c!\"install\", .bool false), (c!\"metalink\", .bool false), (c!\"sslcacert\", .none), (c!\"sslclientcert\", .none), (c!\"sslclientkey\", .none)]", "bsets": "[]", "rows": {"--baseurl=QX": "REFUSED", "--metalink=QX": "REFUSED"}}, "400": {"cmd": "repo", "cls": "F30_Repo.cls F30_RepoData.cls", "vs": [30000, 31000, 32000], "base": "--name=r --metalink=m", "bi": 2, "lines": ["--mirrorlist=QX"], "ok": true, "kind": "L", "d": "[(c!\"lineno\", .int 7), (c!\"baseurl\", .str c!\"\"), (c!\"mirrorlist\", .none), (c!\"name\", .str c!\"r\"), (c!\"cost\", .none), (c!\"includepkgs\", .list []), (c!\"excludepkgs\", .list []), (c!\"ignoregroups\", .none), (c!\"proxy\", .str c!\"\"), (c!\"noverifyssl\", .bool false), (c!\"install\", .bool false), (c!\"metalink\", .str c!\"m\"), (c!\"sslcacert\", .none), (c!\"sslclientcert\", .none), (c!\"sslclientkey\", .none)]", "bsets": "[]", "rows": {"--mirrorlist=QX": "REFUSED"}}, "401": {"cmd": "url", "cls": "F30_Url.cls", "vs": [30000, 31000, 32000, 33000, 34000], "base": "--url=U", "bi": 0, "lines": ["--url=QX", "--proxy=QX", "--noverifyssl", "--mirrorlist=QX", "--metalink=QX", "--sslcacert=QX", "--sslclientcert=QX", "--sslclientkey=QX"], "ok": true, "kind": "P", "d": "[(c!\"url\", .str c!\"U\"), (c!\"proxy\", .str c!\"\"), (c!\"noverifyssl\", .bool false), (c!\"mirrorlist\", .none), (c!\"metalink\", .none), (c!\"sslcacert\", .none), (c!\"sslclientcert\", .none), (c!\"sslclientkey\", .none)]", "bsets": "[(c!\"url\", .str c!\"U\")]", "rows": {"--url=QX": "[(c!\"url\", .str c!\"QX\")]", "--proxy=QX": "[(c!\"proxy\", .str c!\"QX\")]", "--noverifyssl": "[(c!\"noverifyssl\", .bool true)]", "--mirrorlist=QX": "REFUSED", "--metalink=QX": "REFUSED", "--sslcacert=QX": "[(c!\"sslcacert\", .str c!\"QX\")]", "--sslclientcert=QX": "[(c!\"sslclientcert\", .str c!\"QX\")]", "--sslclientkey=QX": "[(c!\"sslclientkey\", .str c!\"QX\")]"}}, "402": {"cmd": "url", "cls": "F30_Url.cls", "vs": [30000, 31000, 32000, 33000, 34000], "base": "--mirrorlist=M", "bi": 1, "lines": ["--proxy=QX", "--metalink=QX", "--url=QX"], "ok": true, "kind": "P", "d": "[(c!\"url\", .none), (c!\"proxy\", .str c!\"\"), (c!\"noverifyssl\", .bool false), (c!\"mirrorlist\", .str c!\"M\"), (c!\"metalink\", .none), (c!\"sslcacert\", .none), (c!\"sslclientcert\", .none), (c!\"sslclientkey\", .none)]", "bsets": "[(c!\"mirrorlist\", .str c!\"M\")]", "rows": {"--proxy=QX": "[(c!\"proxy\", .str c!\"QX\")]", "--metalink=QX": "REFUSED", "--url=QX": "REFUSED"}}, "403": {"cmd": "url", "cls": "F30_Url.cls", "vs": [30000, 31000, 32000, 33000, 34000], "base": "--metalink=M", "bi": 2, "lines": ["--mirrorlist=QX"], "ok": true, "kind": "P", "d": "[(c!\"url\", .none), (c!\"proxy\", .str c!\"\"), (c!\"noverifyssl\", .bool false), (c!\"mirrorlist\", .none), (c!\"metalink\", .str c!\"M\"), (c!\"sslcacert\", .none), (c!\"sslclientcert\", .none), (c!\"sslclientkey\", .none)]", "bsets": "[(c!\"metalink\", .str c!\"M\")]", "rows": {"--mirrorlist=QX": "REFUSED"}}, "404": {"cmd": "module", "cls": "F31_Module.cls F31_ModuleData.cls", "vs": [31000, 32000, 33000, 34000], "base": "--name=m", "bi": 0, "lines": ["--name=QX", "--stream=QX", "--disable"], "ok": true, "kind": "L", "d": "[(c!\"lineno\", .int 7), (c!\"name\", .str c!\"m\"), (c!\"stream\", .str c!\"\"), (c!\"enable\", .bool true)]", "bsets": "[]", "rows": {"--name=QX": "[(c!\"name\", .str c!\"QX\")]", "--stream=QX": "[(c!\"stream\", .str c!\"QX\")]", "--disable": "[(c!\"enable\", .bool false)]"}}, "405": {"cmd": "timezone", "cls": "F32_Timezone.cls", "vs": [32000], "base": "T", "bi": 0, "lines": ["--utc", "--isUtc", "--nontp", "--ntpservers=QX"], "ok": true, "kind": "P", "d": "[(c!\"isUtc\", .bool false), (c!\"timezone\", .str c!\"T\"), (c!\"nontp\", .bool false), (c!\"ntpservers\", .list [])]", "bsets": "[(c!\"timezone\", .str c!\"T\")]", "rows": {"--utc": "[(c!\"isUtc\", .bool true)]", "--isUtc": "[(c!\"isUtc\", .bool true)]", "--nontp": "[(c!\"nontp\", .bool true)]", "--ntpservers=QX": "[(c!\"ntpservers\", .list [c!\"QX\"])]"}}, "406": {"cmd": "timezone", "cls": "F32_Timezone.cls", "vs": [32000], "base": "--utc T", "bi": 1, "lines": ["--ntpservers=QX", "--nontp"], "ok": true, "kind": "P", "d": "[(c!\"isUtc\", .bool true), (c!\"timezone\", .str c!\"T\"), (c!\"nontp\", .bool false), (c!\"ntpservers\", .list [])]", "bsets": "[(c!\"isUtc\", .bool true), (c!\"timezone\", .str c!\"T\")]", "rows": {"--ntpservers=QX": "[(c!\"ntpservers\", .list [c!\"QX\"])]", "--nontp": "[(c!\"nontp\", .bool true)]"}}, "407": {"cmd": "zipl", "cls": "F32_Zipl.cls", "vs": [32000, 33000, 34000], "base": "", "bi": 0, "lines": ["--secure-boot", "--force-secure-boot", "--no-secure-boot"], "ok": true, "kind": "P", "d": "[(c!\"secure_boot\", .int -1)]", "bsets": "[]", "rows": {"--secure-boot": "[(c!\"secure_boot\", .int 2)]", "--force-secure-boot": "[(c!\"secure_boot\", .int 1)]", "--no-secure-boot": "[(c!\"secure_boot\", .int 0)]"}}, "408": {"cmd": "harddrive", "cls": "F33_HardDrive.cls", "vs": [33000, 34000], "base": "--dir=d --partition=p", "bi": 0, "lines": ["--biospart=QX", "--partition=QX", "--dir=QX"], "ok": true, "kind": "P", "d": "[(c!\"partition\", .str c!\"p\"), (c!\"dir\", .str c!\"d\")]", "bsets": "[(c!\"partition\", .str c!\"p\"), (c!\"dir\", .str c!\"d\")]", "rows": {"--biospart=QX": "REFUSED", "--partition=QX": "[(c!\"partition\", .str c!\"QX\")]", "--dir=QX": "[(c!\"dir\", .str c!\"QX\")]"}}, "409": {"cmd": "harddrive", "cls": "F33_HardDrive.cls", "vs": [33000, 34000], "base": "--dir=d --biospart=b", "bi": 1, "lines": ["--partition=QX", "--dir=QX"], "ok": false}, "410": {"cmd": "timesource", "cls": "F33_Timesource.cls F33_TimesourceData.cls", "vs": [33000, 34000], "base": "--ntp-server=s", "bi": 0, "lines": ["--nts"], "ok": true, "kind": "L", "d": "[(c!\"lineno\", .int 7), (c!\"ntp_server\", .str c!\"s\"), (c!\"ntp_pool\", .str c!\"\"), (c!\"ntp_disable\", .bool false), (c!\"nts\", .bool false)]", "bsets": "[]", "rows": {"--nts": "[(c!\"nts\", .bool true)]"}}, "411": {"cmd": "timesource", "cls": "F33_Timesource.cls F33_TimesourceData.cls", "vs": [33000, 34000], "base": "--ntp-pool=p", "bi": 1, "lines": ["--nts", "--ntp-server=QX"], "ok": true, "kind": "L", "d": "[(c!\"lineno\", .int 7), (c!\"ntp_server\", .str c!\"\"), (c!\"ntp_pool\", .str c!\"p\"), (c!\"ntp_disable\", .bool false), (c!\"nts\", .bool false)]", "bsets": "[]", "rows": {"--nts": "[(c!\"nts\", .bool true)]", "--ntp-server=QX": "REFUSED"}}, "412": {"cmd": "timesource", "cls": "F33_Timesource.cls F33_TimesourceData.cls", "vs": [33000, 34000], "base": "--ntp-disable", "bi": 2, "lines": ["--nts", "--ntp-pool=QX"], "ok": true, "kind": "L", "d": "[(c!\"lineno\", .int 7), (c!\"ntp_server\", .str c!\"\"), (c!\"ntp_pool\", .str c!\"\"), (c!\"ntp_disable\", .bool true), (c!\"nts\", .bool false)]", "bsets": "[]", "rows": {"--nts": "[(c!\"nts\", .bool true)]", "--ntp-pool=QX": "REFUSED"}}, "413": {"cmd": "repo", "cls": "F33_Repo.cls F30_RepoData.cls", "vs": [33000, 34000], "base": "--name=r --baseurl=b", "bi": 0, "lines": ["--name=QX", "--baseurl=QX", "--mirrorlist=QX", "--cost=42", "--excludepkgs=QX", "--includepkgs=QX", "--ignoregroups=yes", "--ignoregroups=off", "--proxy=QX", "--noverifyssl", "--install", "--metalink=QX", "--sslcacert=QX", "--sslclientcert=QX", "--sslclientkey=QX"], "ok": true, "kind": "L", "d": "[(c!\"lineno\", .int 7), (c!\"baseurl\", .str c!\"b\"), (c!\"mirrorlist\", .none), (c!\"name\", .str c!\"r\"), (c!\"cost\", .none), (c!\"includepkgs\", .list []), (c!\"excludepkgs\", .list []), (c!\"ignoregroups\", .none), (c!\"proxy\", .str c!\"\"), (c!\"noverifyssl\", .bool false), (c!\"install\", .bool false), (c!\"metalink\", .bool false), (c!\"sslcacert\", .none), (c!\"sslclientcert\", .none), (c!\"sslclientkey\", .none)]", "bsets": "[]", "rows": {"--name=QX": "[(c!\"name\", .str c!\"QX\")]", "--baseurl=QX": "[(c!\"baseurl\", .str c!\"QX\")]", "--mirrorlist=QX": "REFUSED", "--cost=42": "[(c!\"cost\", .int 42)]", "--excludepkgs=QX": "[(c!\"excludepkgs\", .list [c!\"QX\"])]", "--includepkgs=QX": "[(c!\"includepkgs\", .list [c!\"QX\"])]", "--ignoregroups=yes": "[(c!\"ignoregroups\", .bool true)]", "--ignoregroups=off": "[(c!\"ignoregroups\", .bool false)]", "--proxy=QX": "[(c!\"proxy\", .str c!\"QX\")]", "--noverifyssl": "[(c!\"noverifyssl\", .bool true)]", "--install": "[(c!\"install\", .bool true)]", "--metalink=QX": "REFUSED", "--sslcacert=QX": "[(c!\"sslcacert\", .str c!\"QX\")]", "--sslclientcert=QX": "[(c!\"sslclientcert\", .str c!\"QX\")]", "--sslclientkey=QX": "[(c!\"sslclientkey\", .str c!\"QX\")]"}}, "414": {"cmd": "repo", "cls": "F33_Repo.cls F30_RepoData.cls", "vs": [33000, 34000], "base": "--name=r --mirrorlist=m", "bi": 1, "lines": ["--baseurl=QX", "--metalink=QX"], "ok": true, "kind": "L", "d": "[(c!\"lineno\", .int 7), (c!\"baseurl\", .str c!\"\"), (c!\"mirrorlist\", .str c!\"m\"), (c!\"name\", .str c!\"r\"), (c!\"cost\", .none), (c!\"includepkgs\", .list []), (c!\"excludepkgs\", .list []), (c!\"ignoregroups\", .none), (c!\"proxy\", .str c!\"\"), (c!\"noverifyssl\", .bool false), (c!\"install\", .bool false), (c!\"metalink\", .bool false), (c!\"sslcacert\", .none), (c!\"sslclientcert\", .none), (c!\"sslclientkey\", .none)]", "bsets": "[]", "rows": {"--baseurl=QX": "REFUSED", "--metalink=QX": "REFUSED"}}, "415": {"cmd": "repo", "cls": "F33_Repo.cls F30_RepoData.cls", "vs": [33000, 34000], "base": "--name=r --metalink=m", "bi": 2, "lines": ["--mirrorlist=QX"], "ok": true, "kind": "L", "d": "[(c!\"lineno\", .int 7), (c!\"baseurl\", .str c!\"\"), (c!\"mirrorlist\", .none), (c!\"name\", .str c!\"r\"), (c!\"cost\", .none), (c!\"includepkgs\", .list []), (c!\"excludepkgs\", .list []), (c!\"ignoregroups\", .none), (c!\"proxy\", .str c!\"\"), (c!\"noverifyssl\", .bool false), (c!\"install\", .bool false), (c!\"metalink\", .str c!\"m\"), (c!\"sslcacert\", .none), (c!\"sslclientcert\", .none), (c!\"sslclientkey\", .none)]", "bsets": "[]", "rows": {"--mirrorlist=QX": "REFUSED"}}, "416": {"cmd": "timezone", "cls": "F33_Timezone.cls", "vs": [33000, 34000], "base": "T", "bi": 0, "lines": ["--utc", "--isUtc", "--nontp", "--ntpservers=QX"], "ok": true, "kind": "P", "d": "[(c!\"isUtc\", .bool false), (c!\"timezone\", .str c!\"T\"), (c!\"nontp\", .bool false), (c!\"ntpservers\", .list [])]", "bsets": "[(c!\"timezone\", .str c!\"T\")]", "rows": {"--utc": "[(c!\"isUtc\", .bool true)]", "--isUtc": "[(c!\"isUtc\", .bool true)]", "--nontp": "[(c!\"nontp\", .bool true)]", "--ntpservers=QX": "[(c!\"ntpservers\", .list [c!\"QX\"])]"}}, "417": {"cmd": "timezone", "cls": "F33_Timezone.cls", "vs": [33000, 34000], "base": "--utc T", "bi": 1, "lines": ["--ntpservers=QX", "--nontp"], "ok": true, "kind": "P", "d": "[(c!\"isUtc\", .bool true), (c!\"timezone\", .str c!\"T\"), (c!\"nontp\", .bool false), (c!\"ntpservers\", .list [])]", "bsets": "[(c!\"isUtc\", .bool true), (c!\"timezone\", .str c!\"T\")]", "rows": {"--ntpservers=QX": "[(c!\"ntpservers\", .list [c!\"QX\"])]", "--nontp": "[(c!\"nontp\", .bool true)]"}}, "418": {"cmd": "bootloader", "cls": "F34_Bootloader.cls", "vs": [34000], "base": "", "bi": 0, "lines": ["--append=QX", "--location=mbr", "--location=partition", "--location=none", "--location=boot", "--lba32", "--password=QX", "--md5pass=QX", "--upgrade", "--driveorder=QX", "--timeout=42", "--default=QX", "--iscrypted", "--boot-drive=QX", "--leavebootorder", "--extlinux", "--disabled", "--nombr", "--linear", "--nolinear", "--useLilo", "--hvargs=QX"], "ok": true, "kind": "P", "d": "[(c!\"driveorder\", .list []), (c!\"appendLine\", .str c!\"\"), (c!\"location\", .str c!\"mbr\"), (c!\"md5pass\", .str c!\"\"), (c!\"password\", .str c!\"\"), (c!\"upgrade\", .bool false), (c!\"timeout\", .none), (c!\"default\", .str c!\"\"), (c!\"isCrypted\", .bool false), (c!\"bootDrive\", .str c!\"\"), (c!\"leavebootorder\", .bool false), (c!\"extlinux\", .bool false), (c!\"disabled\", .bool false), (c!\"nombr\", .bool false)]", "bsets": "[(c!\"location\", .str c!\"mbr\")]", "rows": {"--append=QX": "[(c!\"appendLine\", .str c!\"QX\")]", "--location=mbr": "[]", "--location=partition": "[(c!\"location\", .str c!\"partition\")]", "--location=none": "[(c!\"location\", .str c!\"none\")]", "--location=boot": "[(c!\"location\", .str c!\"boot\")]", "--lba32": "REFUSED", "--password=QX": "[(c!\"password\", .str c!\"QX\")]", "--md5pass=QX": "[(c!\"password\", .str c!\"QX\"), (c!\"isCrypted\", .bool true)]", "--upgrade": "REFUSED", "--driveorder=QX": "[(c!\"driveorder\", .list [c!\"QX\"])]", "--timeout=42": "[(c!\"timeout\", .int 42)]", "--default=QX": "[(c!\"default\", .str c!\"QX\")]", "--iscrypted": "[(c!\"isCrypted\", .bool true)]", "--boot-drive=QX": "[(c!\"bootDrive\", .str c!\"QX\")]", "--leavebootorder": "[(c!\"leavebootorder\", .bool true)]", "--extlinux": "[(c!\"extlinux\", .bool true)]", "--disabled": "[(c!\"disabled\", .bool true)]", "--nombr": "[(c!\"nombr\", .bool true)]", "--linear": "REFUSED", "--nolinear": "REFUSED", "--useLilo": "REFUSED", "--hvargs=QX": "REFUSED"}}, "419": {"cmd": "ignoredisk", "cls": "F34_IgnoreDisk.cls", "vs": [34000], "base": "--drives=a", "bi": 0, "lines": ["--drives=QX", "--only-use=QX", "--interactive"], "ok": true, "kind": "P", "d": "[(c!\"ignoredisk\", .list [c!\"a\"]), (c!\"onlyuse\", .list []), (c!\"interactive\", .bool false)]", "bsets": "[(c!\"ignoredisk\", .list [c!\"a\"])]", "rows": {"--drives=QX": "[(c!\"ignoredisk\", .list [c!\"QX\"])]", "--only-use=QX": "REFUSED", "--interactive": "REFUSED"}}, "420": {"cmd": "ignoredisk", "cls": "F34_IgnoreDisk.cls", "vs": [34000], "base": "--only-use=a", "bi": 1, "lines": ["--drives=QX", "--only-use=QX"], "ok": true, "kind": "P", "d": "[(c!\"ignoredisk\", .list []), (c!\"onlyuse\", .list [c!\"a\"]), (c!\"interactive\", .bool false)]", "bsets": "[(c!\"onlyuse\", .list [c!\"a\"])]", "rows": {"--drives=QX": "REFUSED", "--only-use=QX": "[(c!\"onlyuse\", .list [c!\"QX\"])]"}}, "421": {"cmd": "ignoredisk", "cls": "F34_IgnoreDisk.cls", "vs": [34000], "base": "--interactive", "bi": 2, "lines": ["--only-use=QX"], "ok": false}, "422": {"cmd": "logging", "cls": "F34_Logging.cls", "vs": [34000], "base": "", "bi": 0, "lines": ["--host=QX", "--port=QX", "--level=debug", "--level=info", "--level=warning", "--level=error", "--level=critical", "--level=QX"], "ok": true, "kind": "P", "d": "[(c!\"host\", .str c!\"\"), (c!\"level\", .str c!\"info\"), (c!\"port\", .str c!\"\"), (c!\"_level_provided\", .bool true)]", "bsets": "[(c!\"_level_provided\", .bool true)]", "rows": {"--host=QX": "[(c!\"host\", .str c!\"QX\")]", "--port=QX": "REFUSED", "--level=debug": "[(c!\"level\", .str c!\"debug\")]", "--level=info": "[]", "--level=warning": "[(c!\"level\", .str c!\"warning\")]", "--level=error": "[(c!\"level\", .str c!\"error\")]", "--level=critical": "[(c!\"level\", .str c!\"critical\")]", "--level=QX": "[(c!\"level\", .str c!\"QX\")]"}}, "423": {"cmd": "logging", "cls": "F34_Logging.cls", "vs": [34000], "base": "--host=h", "bi": 1, "lines": ["--port=QX", "--level=debug"], "ok": true, "kind": "P", "d": "[(c!\"host\", .str c!\"h\"), (c!\"level\", .str c!\"info\"), (c!\"port\", .str c!\"\"), (c!\"_level_provided\", .bool true)]", "bsets": "[(c!\"host\", .str c!\"h\"), (c!\"_level_provided\", .bool true)]", "rows": {"--port=QX": "[(c!\"port\", .str c!\"QX\")]", "--level=debug": "[(c!\"level\", .str c!\"debug\")]"}}, "424": {"cmd": "part", "cls": "F34_Partition.cls F29_PartData.cls", "vs": [34000], "base": "/x --size=1", "bi": 0, "lines": ["--active", "--asprimary", "--start=42", "--end=42", "--fstype=QX", "--type=QX", "--grow", "--maxsize=42", "--noformat", "--onbiosdisk=QX", "--ondisk=QX", "--ondrive=QX", "--onpart=QX", "--usepart=QX", "--recommended", "--size=42", "--fsoptions=QX", "--label=QX", "--bytes-per-inode=QX", "--fsprofile=QX", "--encrypted", "--passphrase=QX", "--start=QX", "--end=QX", "--escrowcert=QX", "--backuppassphrase", "--resize", "--hibernation", "--cipher=QX", "--mkfsoptions=QX", "--luks-version=QX", "--pbkdf=QX", "--pbkdf-memory=42", "--pbkdf-time=42", "--pbkdf-iterations=42", "--bytes-per-inode=42"], "ok": true, "kind": "L", "d": "[(c!\"lineno\", .int 7), (c!\"active\", .bool false), (c!\"primOnly\", .bool false), (c!\"fstype\", .str c!\"\"), (c!\"grow\", .bool false), (c!\"maxSizeMB\", .int 0), (c!\"format\", .bool true), (c!\"onbiosdisk\", .str c!\"\"), (c!\"disk\", .str c!\"\"), (c!\"onPart\", .str c!\"\"), (c!\"recommended\", .bool false), (c!\"size\", .int 1), (c!\"mountpoint\", .str c!\"/x\"), (c!\"fsopts\", .str c!\"\"), (c!\"label\", .str c!\"\"), (c!\"fsprofile\", .str c!\"\"), (c!\"encrypted\", .bool false), (c!\"passphrase\", .str c!\"\"), (c!\"escrowcert\", .str c!\"\"), (c!\"backuppassphrase\", .bool false), (c!\"resize\", .bool false), (c!\"hibernation\", .bool false), (c!\"cipher\", .str c!\"\"), (c!\"mkfsopts\", .str c!\"\"), (c!\"luks_version\", .str c!\"\"), (c!\"pbkdf\", .str c!\"\"), (c!\"pbkdf_memory\", .int 0), (c!\"pbkdf_time\", .int 0), (c!\"pbkdf_iterations\", .int 0), (c!\"mntpoint\", .list [c!\"/x\"])]", "bsets": "[]", "rows": {"--active": "REFUSED", "--asprimary": "[(c!\"primOnly\", .bool true)]", "--start=42": "REFUSED", "--end=42": "REFUSED", "--fstype=QX": "[(c!\"fstype\", .str c!\"QX\")]", "--type=QX": "[(c!\"fstype\", .str c!\"QX\")]", "--grow": "[(c!\"grow\", .bool true)]", "--maxsize=42": "[(c!\"maxSizeMB\", .int 42)]", "--noformat": "[(c!\"format\", .bool false)]", "--onbiosdisk=QX": "[(c!\"onbiosdisk\", .str c!\"QX\")]", "--ondisk=QX": "[(c!\"disk\", .str c!\"QX\")]", "--ondrive=QX": "[(c!\"disk\", .str c!\"QX\")]", "--onpart=QX": "[(c!\"onPart\", .str c!\"QX\")]", "--usepart=QX": "[(c!\"onPart\", .str c!\"QX\")]", "--recommended": "[(c!\"recommended\", .bool true)]", "--size=42": "[(c!\"size\", .int 42)]", "--fsoptions=QX": "[(c!\"fsopts\", .str c!\"QX\")]", "--label=QX": "[(c!\"label\", .str c!\"QX\")]", "--bytes-per-inode=QX": "REFUSED", "--fsprofile=QX": "[(c!\"fsprofile\", .str c!\"QX\")]", "--encrypted": "[(c!\"encrypted\", .bool true)]", "--passphrase=QX": "[(c!\"passphrase\", .str c!\"QX\")]", "--start=QX": "REFUSED", "--end=QX": "REFUSED", "--escrowcert=QX": "[(c!\"escrowcert\", .str c!\"QX\")]", "--backuppassphrase": "[(c!\"backuppassphrase\", .bool true)]", "--resize": "REFUSED", "--hibernation": "[(c!\"hibernation\", .bool true)]", "--cipher=QX": "[(c!\"cipher\", .str c!\"QX\")]", "--mkfsoptions=QX": "[(c!\"mkfsopts\", .str c!\"QX\")]", "--luks-version=QX": "[(c!\"luks_version\", .str c!\"QX\")]", "--pbkdf=QX": "[(c!\"pbkdf\", .str c!\"QX\")]", "--pbkdf-memory=42": "[(c!\"pbkdf_memory\", .int 42)]", "--pbkdf-time=42": "[(c!\"pbkdf_time\", .int 42)]", "--pbkdf-iterations=42": "[(c!\"pbkdf_iterations\", .int 42)]", "--bytes-per-inode=42": "REFUSED"}}, "425": {"cmd": "part", "cls": "F34_Partition.cls F29_PartData.cls", "vs": [34000], "base": "/x --onpart=sda1 --size=1", "bi": 1, "lines": ["--resize", "--noformat"], "ok": true, "kind": "L", "d": "[(c!\"lineno\", .int 7), (c!\"active\", .bool false), (c!\"primOnly\", .bool false), (c!\"fstype\", .str c!\"\"), (c!\"grow\", .bool false), (c!\"maxSizeMB\", .int 0), (c!\"format\", .bool true), (c!\"onbiosdisk\", .str c!\"\"), (c!\"disk\", .str c!\"\"), (c!\"onPart\", .str c!\"sda1\"), (c!\"recommended\", .bool false), (c!\"size\", .int 1), (c!\"mountpoint\", .str c!\"/x\"), (c!\"fsopts\", .str c!\"\"), (c!\"label\", .str c!\"\"), (c!\"fsprofile\", .str c!\"\"), (c!\"encrypted\", .bool false), (c!\"passphrase\", .str c!\"\"), (c!\"escrowcert\", .str c!\"\"), (c!\"backuppassphrase\", .bool false), (c!\"resize\", .bool false), (c!\"hibernation\", .bool false), (c!\"cipher\", .str c!\"\"), (c!\"mkfsopts\", .str c!\"\"), (c!\"luks_version\", .str c!\"\"), (c!\"pbkdf\", .str c!\"\"), (c!\"pbkdf_memory\", .int 0), (c!\"pbkdf_time\", .int 0), (c!\"pbkdf_iterations\", .int 0), (c!\"mntpoint\", .list [c!\"/x\"])]", "bsets": "[]", "rows": {"--resize": "[(c!\"resize\", .bool true)]", "--noformat": "[(c!\"format\", .bool false)]"}}, "426": {"cmd": "partition", "cls": "F34_Partition.cls F29_PartData.cls", "vs": [34000], "base": "/x --size=1", "bi": 0, "lines": ["--active", "--asprimary", "--start=42", "--end=42", "--fstype=QX", "--type=QX", "--grow", "--maxsize=42", "--noformat", "--onbiosdisk=QX", "--ondisk=QX", "--ondrive=QX", "--onpart=QX", "--usepart=QX", "--recommended", "--size=42", "--fsoptions=QX", "--label=QX", "--bytes-per-inode=QX", "--fsprofile=QX", "--encrypted", "--passphrase=QX", "--start=QX", "--end=QX", "--escrowcert=QX", "--backuppassphrase", "--resize", "--hibernation", "--cipher=QX", "--mkfsoptions=QX", "--luks-version=QX", "--pbkdf=QX", "--pbkdf-memory=42", "--pbkdf-time=42", "--pbkdf-iterations=42", "--bytes-per-inode=42"], "ok": true, "kind": "L", "d": "[(c!\"lineno\", .int 7), (c!\"active\", .bool false), (c!\"primOnly\", .bool false), (c!\"fstype\", .str c!\"\"), (c!\"grow\", .bool false), (c!\"maxSizeMB\", .int 0), (c!\"format\", .bool true), (c!\"onbiosdisk\", .str c!\"\"), (c!\"disk\", .str c!\"\"), (c!\"onPart\", .str c!\"\"), (c!\"recommended\", .bool false), (c!\"size\", .int 1), (c!\"mountpoint\", .str c!\"/x\"), (c!\"fsopts\", .str c!\"\"), (c!\"label\", .str c!\"\"), (c!\"fsprofile\", .str c!\"\"), (c!\"encrypted\", .bool false), (c!\"passphrase\", .str c!\"\"), (c!\"escrowcert\", .str c!\"\"), (c!\"backuppassphrase\", .bool false), (c!\"resize\", .bool false), (c!\"hibernation\", .bool false), (c!\"cipher\", .str c!\"\"), (c!\"mkfsopts\", .str c!\"\"), (c!\"luks_version\", .str c!\"\"), (c!\"pbkdf\", .str c!\"\"), (c!\"pbkdf_memory\", .int 0), (c!\"pbkdf_time\", .int 0), (c!\"pbkdf_iterations\", .int 0), (c!\"mntpoint\", .list [c!\"/x\"])]", "bsets": "[]", "rows": {"--active": "REFUSED", "--asprimary": "[(c!\"primOnly\", .bool true)]", "--start=42": "REFUSED", "--end=42": "REFUSED", "--fstype=QX": "[(c!\"fstype\", .str c!\"QX\")]", "--type=QX": "[(c!\"fstype\", .str c!\"QX\")]", "--grow": "[(c!\"grow\", .bool true)]", "--maxsize=42": "[(c!\"maxSizeMB\", .int 42)]", "--noformat": "[(c!\"format\", .bool false)]", "--onbiosdisk=QX": "[(c!\"onbiosdisk\", .str c!\"QX\")]", "--ondisk=QX": "[(c!\"disk\", .str c!\"QX\")]", "--ondrive=QX": "[(c!\"disk\", .str c!\"QX\")]", "--onpart=QX": "[(c!\"onPart\", .str c!\"QX\")]", "--usepart=QX": "[(c!\"onPart\", .str c!\"QX\")]", "--recommended": "[(c!\"recommended\", .bool true)]", "--size=42": "[(c!\"size\", .int 42)]", "--fsoptions=QX": "[(c!\"fsopts\", .str c!\"QX\")]", "--label=QX": "[(c!\"label\", .str c!\"QX\")]", "--bytes-per-inode=QX": "REFUSED", "--fsprofile=QX": "[(c!\"fsprofile\", .str c!\"QX\")]", "--encrypted": "[(c!\"encrypted\", .bool true)]", "--passphrase=QX": "[(c!\"passphrase\", .str c!\"QX\")]", "--start=QX": "REFUSED", "--end=QX": "REFUSED", "--escrowcert=QX": "[(c!\"escrowcert\", .str c!\"QX\")]", "--backuppassphrase": "[(c!\"backuppassphrase\", .bool true)]", "--resize": "REFUSED", "--hibernation": "[(c!\"hibernation\", .bool true)]", "--cipher=QX": "[(c!\"cipher\", .str c!\"QX\")]", "--mkfsoptions=QX": "[(c!\"mkfsopts\", .str c!\"QX\")]", "--luks-version=QX": "[(c!\"luks_version\", .str c!\"QX\")]", "--pbkdf=QX": "[(c!\"pbkdf\", .str c!\"QX\")]", "--pbkdf-memory=42": "[(c!\"pbkdf_memory\", .int 42)]", "--pbkdf-time=42": "[(c!\"pbkdf_time\", .int 42)]", "--pbkdf-iterations=42": "[(c!\"pbkdf_iterations\", .int 42)]", "--bytes-per-inode=42": "REFUSED"}}, "427": {"cmd": "partition", "cls": "F34_Partition.cls F29_PartData.cls", "vs": [34000], "base": "/x --onpart=sda1 --size=1", "bi": 1, "lines": ["--resize", "--noformat"], "ok": true, "kind": "L", "d": "[(c!\"lineno\", .int 7), (c!\"active\", .bool false), (c!\"primOnly\", .bool false), (c!\"fstype\", .str c!\"\"), (c!\"grow\", .bool false), (c!\"maxSizeMB\", .int 0), (c!\"format\", .bool true), (c!\"onbiosdisk\", .str c!\"\"), (c!\"disk\", .str c!\"\"), (c!\"onPart\", .str c!\"sda1\"), (c!\"recommended\", .bool false), (c!\"size\", .int 1), (c!\"mountpoint\", .str c!\"/x\"), (c!\"fsopts\", .str c!\"\"), (c!\"label\", .str c!\"\"), (c!\"fsprofile\", .str c!\"\"), (c!\"encrypted\", .bool false), (c!\"passphrase\", .str c!\"\"), (c!\"escrowcert\", .str c!\"\"), (c!\"backuppassphrase\", .bool false), (c!\"resize\", .bool false), (c!\"hibernation\", .bool false), (c!\"cipher\", .str c!\"\"), (c!\"mkfsopts\", .str c!\"\"), (c!\"luks_version\", .str c!\"\"), (c!\"pbkdf\", .str c!\"\"), (c!\"pbkdf_memory\", .int 0), (c!\"pbkdf_time\", .int 0), (c!\"pbkdf_iterations\", .int 0), (c!\"mntpoint\", .list [c!\"/x\"])]", "bsets": "[]", "rows": {"--resize": "[(c!\"resize\", .bool true)]", "--noformat": "[(c!\"format\", .bool false)]"}}, "428": {"cmd": "updates", "cls": "F34_Updates.cls", "vs": [34000], "base": "", "bi": 0, "lines": [], "ok": false}, "429": {"cmd": "updates", "cls": "F34_Updates.cls", "vs": [34000], "base": "U", "bi": 1, "lines": [], "ok": true, "kind": "P", "d": "[(c!\"url\", .str c!\"U\")]", "bsets": "[(c!\"url\", .str c!\"U\")]", "rows": {}}, "430": {"cmd": "autopart", "cls": "FC3_AutoPart.cls", "vs": [5000, 6000, 1000, 2000, 3000, 4000, 900, 1100], "base": "", "bi": 0, "lines": ["--encrypted", "--passphrase=QX", "--escrowcert=QX", "--backuppassphrase", "--nolvm", "--type=lvm", "--type=btrfs", "--type=plain", "--type=partition", "--cipher=QX", "--type=thinp", "--fstype=QX", "--nohome", "--noboot", "--noswap", "--luks-version=QX", "--pbkdf=QX", "--pbkdf-memory=42", "--pbkdf-time=42", "--pbkdf-iterations=42"], "ok": true, "kind": "P", "d": "[(c!\"autopart\", .bool true)]", "bsets": "[(c!\"autopart\", .bool true)]", "rows": {"--encrypted": "REFUSED", "--passphrase=QX": "REFUSED", "--escrowcert=QX": "REFUSED", "--backuppassphrase": "REFUSED", "--nolvm": "REFUSED", "--type=lvm": "REFUSED", "--type=btrfs": "REFUSED", "--type=plain": "REFUSED", "--type=partition": "REFUSED", "--cipher=QX": "REFUSED", "--type=thinp": "REFUSED", "--fstype=QX": "REFUSED", "--nohome": "REFUSED", "--noboot": "REFUSED", "--noswap": "REFUSED", "--luks-version=QX": "REFUSED", "--pbkdf=QX": "REFUSED", "--pbkdf-memory=42": "REFUSED", "--pbkdf-time=42": "REFUSED", "--pbkdf-iterations=42": "REFUSED"}}, "431": {"cmd": "bootloader", "cls": "FC4_Bootloader.cls", "vs": [5000, 2000, 3000, 4000], "base": "", "bi": 0, "lines": ["--append=QX", "--location=mbr", "--location=partition", "--location=none", "--location=boot", "--lba32", "--password=QX", "--md5pass=QX", "--upgrade", "--driveorder=QX", "--timeout=42", "--default=QX", "--iscrypted", "--boot-drive=QX", "--leavebootorder", "--extlinux", "--disabled", "--nombr", "--linear", "--nolinear", "--useLilo", "--hvargs=QX"], "ok": true, "kind": "P", "d": "[(c!\"driveorder\", .list []), (c!\"appendLine\", .str c!\"\"), (c!\"forceLBA\", .bool false), (c!\"location\", .str c!\"mbr\"), (c!\"md5pass\", .str c!\"\"), (c!\"password\", .str c!\"\"), (c!\"upgrade\", .bool false)]", "bsets": "[(c!\"location\", .str c!\"mbr\")]", "rows": {"--append=QX": "[(c!\"appendLine\", .str c!\"QX\")]", "--location=mbr": "[]", "--location=partition": "[(c!\"location\", .str c!\"partition\")]", "--location=none": "[(c!\"location\", .str c!\"none\")]", "--location=boot": "[(c!\"location\", .str c!\"boot\")]", "--lba32": "[(c!\"forceLBA\", .bool true)]", "--password=QX": "[(c!\"password\", .str c!\"QX\")]", "--md5pass=QX": "[(c!\"md5pass\", .str c!\"QX\")]", "--upgrade": "[(c!\"upgrade\", .bool true)]", "--driveorder=QX": "[(c!\"driveorder\", .list [c!\"QX\"])]", "--timeout=42": "REFUSED", "--default=QX": "REFUSED", "--iscrypted": "REFUSED", "--boot-drive=QX": "REFUSED", "--leavebootorder": "REFUSED", "--extlinux": "REFUSED", "--disabled": "REFUSED", "--nombr": "REFUSED", "--linear": "REFUSED", "--nolinear": "REFUSED", "--useLilo": "REFUSED", "--hvargs=QX": "REFUSED"}}, "432": {"cmd": "device", "cls": "FC3_Device.cls", "vs": [5000, 1000, 2000, 3000, 4000, 900, 1100, 4100], "base": "e100", "bi": 0, "lines": ["--opts=QX"], "ok": false}, "433": {"cmd": "device", "cls": "FC3_Device.cls", "vs": [5000, 1000, 2000, 3000, 4000, 900, 1100, 4100], "base": "scsi e100", "bi": 1, "lines": ["--opts=QX"], "ok": true, "kind": "P", "d": "[(c!\"type\", .str c!\"scsi\"), (c!\"moduleName\", .str c!\"e100\"), (c!\"moduleOpts\", .str c!\"\")]", "bsets": "[(c!\"type\", .str c!\"scsi\"), (c!\"moduleName\", .str c!\"e100\")]", "rows": {"--opts=QX": "[(c!\"moduleOpts\", .str c!\"QX\")]"}}, "434": {"cmd": "firewall", "cls": "FC3_Firewall.cls", "vs": [5000, 6000, 1000, 2000, 3000, 4000, 900, 1100, 4100], "base": "", "bi": 0, "lines": ["--disable", "--disabled", "--enable", "--enabled", "--port=QX:tcp", "--trust=QX", "--service=QX", "--ftp", "--http", "--smtp", "--ssh", "--telnet=QX", "--remove-service=QX", "--use-system-defaults", "--telnet", "--high=QX", "--medium=QX"], "ok": true, "kind": "P", "d": "[(c!\"enabled\", .bool true), (c!\"ports\", .list []), (c!\"trusts\", .list [])]", "bsets": "[(c!\"enabled\", .bool true)]", "rows": {"--disable": "[(c!\"enabled\", .bool false)]", "--disabled": "[(c!\"enabled\", .bool false)]", "--enable": "[]", "--enabled": "[]", "--port=QX:tcp": "[(c!\"ports\", .list [c!\"QX:tcp\"])]", "--trust=QX": "[(c!\"trusts\", .list [c!\"QX\"])]", "--service=QX": "REFUSED", "--ftp": "[(c!\"ports\", .list [c!\"21:tcp\"])]", "--http": "[(c!\"ports\", .list [c!\"80:tcp\", c!\"443:tcp\"])]", "--smtp": "[(c!\"ports\", .list [c!\"25:tcp\"])]", "--ssh": "[(c!\"ports\", .list [c!\"22:tcp\"])]", "--telnet=QX": "REFUSED", "--remove-service=QX": "REFUSED", "--use-system-defaults": "REFUSED", "--telnet": "[(c!\"ports\", .list [c!\"23:tcp\"])]", "--high=QX": "[(c!\"high\", .str c!\"QX\")]", "--medium=QX": "[(c!\"medium\", .str c!\"QX\")]"}}, "435": {"cmd": "ignoredisk", "cls": "FC3_IgnoreDisk.cls", "vs": [5000, 1000, 2000, 3000, 4000, 900], "base": "--drives=a", "bi": 0, "lines": ["--drives=QX", "--only-use=QX", "--interactive"], "ok": true, "kind": "P", "d": "[(c!\"ignoredisk\", .list [c!\"a\"])]", "bsets": "[(c!\"ignoredisk\", .list [c!\"a\"])]", "rows": {"--drives=QX": "[(c!\"ignoredisk\", .list [c!\"QX\"])]", "--only-use=QX": "REFUSED", "--interactive": "REFUSED"}}, "436": {"cmd": "ignoredisk", "cls": "FC3_IgnoreDisk.cls", "vs": [5000, 1000, 2000, 3000, 4000, 900], "base": "--only-use=a", "bi": 1, "lines": ["--drives=QX", "--only-use=QX"], "ok": false}, "437": {"cmd": "ignoredisk", "cls": "FC3_IgnoreDisk.cls", "vs": [5000, 1000, 2000, 3000, 4000, 900], "base": "--interactive", "bi": 2, "lines": ["--only-use=QX"], "ok": false}, "438": {"cmd": "iscsi", "cls": "FC6_Iscsi.cls FC6_IscsiData.cls", "vs": [5000, 6000, 7000, 4000, 4100], "base": "--ipaddr=i", "bi": 0, "lines": ["--target=QX", "--ipaddr=QX", "--port=42", "--user=QX", "--password=QX", "--reverse-user=QX", "--reverse-password=QX", "--iface=QX"], "ok": true, "kind": "L", "d": "[(c!\"lineno\", .int 7), (c!\"ipaddr\", .str c!\"i\"), (c!\"port\", .int 3260), (c!\"target\", .str c!\"\"), (c!\"user\", .none), (c!\"password\", .none)]", "bsets": "[]", "rows": {"--target=QX": "[(c!\"target\", .str c!\"QX\")]", "--ipaddr=QX": "[(c!\"ipaddr\", .str c!\"QX\")]", "--port=42": "[(c!\"port\", .int 42)]", "--user=QX": "[(c!\"user\", .str c!\"QX\")]", "--password=QX": "[(c!\"password\", .str c!\"QX\")]", "--reverse-user=QX": "REFUSED", "--reverse-password=QX": "REFUSED", "--iface=QX": "REFUSED"}}, "439": {"cmd": "logvol", "cls": "FC4_LogVol.cls FC4_LogVolData.cls", "vs": [5000, 6000, 2000, 3000, 4000], "base": "/x --name=n --vgname=g --size=1", "bi": 0, "lines": ["--fstype=QX", "--grow", "--maxsize=42", "--name=QX", "--noformat", "--percent=42", "--recommended", "--size=42", "--useexisting", "--vgname=QX", "--fsoptions=QX", "--bytes-per-inode=QX", "--fsprofile=QX", "--encrypted", "--passphrase=QX", "--escrowcert=QX", "--backuppassphrase", "--label=QX", "--resize", "--hibernation", "--cipher=QX", "--thinpool", "--thin", "--poolname=QX", "--chunksize=42", "--metadatasize=42", "--profile=QX", "--cachesize=42", "--cachemode=QX", "--cachepvs=QX", "--mkfsoptions=QX", "--luks-version=QX", "--pbkdf=QX", "--pbkdf-memory=42", "--pbkdf-time=42", "--pbkdf-iterations=42", "--bytes-per-inode=42"], "ok": true, "kind": "L", "d": "[(c!\"lineno\", .int 7), (c!\"fstype\", .str c!\"\"), (c!\"grow\", .bool false), (c!\"maxSizeMB\", .int 0), (c!\"name\", .str c!\"n\"), (c!\"format\", .bool true), (c!\"percent\", .int 0), (c!\"recommended\", .bool false), (c!\"size\", .int 1), (c!\"preexist\", .bool false), (c!\"vgname\", .str c!\"g\"), (c!\"mountpoint\", .str c!\"/x\"), (c!\"bytesPerInode\", .int 4096), (c!\"fsopts\", .str c!\"\"), (c!\"mntpoint\", .list [c!\"/x\"])]", "bsets": "[]", "rows": {"--fstype=QX": "[(c!\"fstype\", .str c!\"QX\")]", "--grow": "[(c!\"grow\", .bool true)]", "--maxsize=42": "[(c!\"maxSizeMB\", .int 42)]", "--name=QX": "[(c!\"name\", .str c!\"QX\")]", "--noformat": "[(c!\"format\", .bool false), (c!\"preexist\", .bool true)]", "--percent=42": "[(c!\"percent\", .int 42)]", "--recommended": "[(c!\"recommended\", .bool true)]", "--size=42": "[(c!\"size\", .int 42)]", "--useexisting": "[(c!\"preexist\", .bool true)]", "--vgname=QX": "[(c!\"vgname\", .str c!\"QX\")]", "--fsoptions=QX": "[(c!\"fsopts\", .str c!\"QX\")]", "--bytes-per-inode=QX": "REFUSED", "--fsprofile=QX": "REFUSED", "--encrypted": "REFUSED", "--passphrase=QX": "REFUSED", "--escrowcert=QX": "REFUSED", "--backuppassphrase": "REFUSED", "--label=QX": "REFUSED", "--resize": "REFUSED", "--hibernation": "REFUSED", "--cipher=QX": "REFUSED", "--thinpool": "REFUSED", "--thin": "REFUSED", "--poolname=QX": "REFUSED", "--chunksize=42": "REFUSED", "--metadatasize=42": "REFUSED", "--profile=QX": "REFUSED", "--cachesize=42": "REFUSED", "--cachemode=QX": "REFUSED", "--cachepvs=QX": "REFUSED", "--mkfsoptions=QX": "REFUSED", "--luks-version=QX": "REFUSED", "--pbkdf=QX": "REFUSED", "--pbkdf-memory=42": "REFUSED", "--pbkdf-time=42": "REFUSED", "--pbkdf-iterations=42": "REFUSED", "--bytes-per-inode=42": "[(c!\"bytesPerInode\", .int 42)]"}}, "440": {"cmd": "logvol", "cls": "FC4_LogVol.cls FC4_LogVolData.cls", "vs": [5000, 6000, 2000, 3000, 4000], "base": "/x --name=n --vgname=g --useexisting", "bi": 1, "lines": ["--size=42", "--resize", "--noformat", "--fstype=ext4"], "ok": true, "kind": "L", "d": "[(c!\"lineno\", .int 7), (c!\"fstype\", .str c!\"\"), (c!\"grow\", .bool false), (c!\"maxSizeMB\", .int 0), (c!\"name\", .str c!\"n\"), (c!\"format\", .bool true), (c!\"percent\", .int 0), (c!\"recommended\", .bool false), (c!\"size\", .none), (c!\"preexist\", .bool true), (c!\"vgname\", .str c!\"g\"), (c!\"mountpoint\", .str c!\"/x\"), (c!\"bytesPerInode\", .int 4096), (c!\"fsopts\", .str c!\"\"), (c!\"mntpoint\", .list [c!\"/x\"])]", "bsets": "[]", "rows": {"--size=42": "[(c!\"size\", .int 42)]", "--resize": "REFUSED", "--noformat": "[(c!\"format\", .bool false)]", "--fstype=ext4": "[(c!\"fstype\", .str c!\"ext4\")]"}}, "441": {"cmd": "logvol", "cls": "FC4_LogVol.cls FC4_LogVolData.cls", "vs": [5000, 6000, 2000, 3000, 4000], "base": "/x --name=n --vgname=g", "bi": 2, "lines": ["--percent=42", "--useexisting", "--noformat"], "ok": true, "kind": "L", "d": "[(c!\"lineno\", .int 7), (c!\"fstype\", .str c!\"\"), (c!\"grow\", .bool false), (c!\"maxSizeMB\", .int 0), (c!\"name\", .str c!\"n\"), (c!\"format\", .bool true), (c!\"percent\", .int 0), (c!\"recommended\", .bool false), (c!\"size\", .none), (c!\"preexist\", .bool false), (c!\"vgname\", .str c!\"g\"), (c!\"mountpoint\", .str c!\"/x\"), (c!\"bytesPerInode\", .int 4096), (c!\"fsopts\", .str c!\"\"), (c!\"mntpoint\", .list [c!\"/x\"])]", "bsets": "[]", "rows": {"--percent=42": "[(c!\"percent\", .int 42)]", "--useexisting": "[(c!\"preexist\", .bool true)]", "--noformat": "[(c!\"format\", .bool false), (c!\"preexist\", .bool true)]"}}, "442": {"cmd": "logvol", "cls": "FC4_LogVol.cls FC4_LogVolData.cls", "vs": [5000, 6000, 2000, 3000, 4000], "base": "/x --name=n --vgname=g --size=1 --poolname=p", "bi": 3, "lines": ["--thin", "--thinpool", "--label=QX"], "ok": false}, "443": {"cmd": "logvol", "cls": "FC4_LogVol.cls FC4_LogVolData.cls", "vs": [5000, 6000, 2000, 3000, 4000], "base": "none --name=n --vgname=g --size=1 --thinpool", "bi": 4, "lines": ["--chunksize=42", "--metadatasize=42", "--profile=QX", "--grow"], "ok": false}, "444": {"cmd": "logvol", "cls": "FC4_LogVol.cls FC4_LogVolData.cls", "vs": [5000, 6000, 2000, 3000, 4000], "base": "/x --name=n --vgname=g --size=1 --cachepvs=a --cachesize=5", "bi": 5, "lines": ["--cachemode=writeback", "--cachemode=writethrough"], "ok": false}, "445": {"cmd": "monitor", "cls": "FC6_Monitor.cls", "vs": [5000, 6000, 7000, 4000, 4100], "base": "", "bi": 0, "lines": ["--hsync=QX", "--monitor=QX", "--vsync=QX", "--noprobe"], "ok": true, "kind": "P", "d": "[(c!\"hsync\", .str c!\"\"), (c!\"monitor\", .str c!\"\"), (c!\"vsync\", .str c!\"\"), (c!\"probe\", .bool true)]", "bsets": "[]", "rows": {"--hsync=QX": "[(c!\"hsync\", .str c!\"QX\")]", "--monitor=QX": "[(c!\"monitor\", .str c!\"QX\")]", "--vsync=QX": "[(c!\"vsync\", .str c!\"QX\")]", "--noprobe": "[(c!\"probe\", .bool false)]"}}, "446": {"cmd": "network", "cls": "FC6_Network.cls FC6_NetworkData.cls", "vs": [5000, 4000], "base": "", "bi": 0, "lines": ["--bootproto=dhcp", "--bootproto=bootp", "--bootproto=static", "--bootproto=query", "--dhcpclass=QX", "--device=QX", "--essid=QX", "--ethtool=QX", "--gateway=QX", "--hostname=QX", "--ip=QX", "--mtu=QX", "--nameserver=QX", "--netmask=QX", "--nodns", "--onboot=yes", "--onboot=off", "--wepkey=QX", "--notksdevice", "--noipv4", "--noipv6", "--ipv6=QX", "--bootproto=ibft", "--activate", "--nodefroute", "--wpakey=QX", "--bondslaves=QX", "--bondopts=QX", "--vlanid=QX", "--ipv6gateway=QX", "--teamslaves=QX", "--teamconfig=QX", "--interfacename=QX", "--bridgeslaves=QX", "--bridgeopts=QX", "--no-activate", "--bindto=mac"], "ok": true, "kind": "L", "d": "[(c!\"lineno\", .int 7), (c!\"bootProto\", .str c!\"dhcp\"), (c!\"dhcpclass\", .str c!\"\"), (c!\"device\", .str c!\"\"), (c!\"essid\", .str c!\"\"), (c!\"ethtool\", .str c!\"\"), (c!\"gateway\", .str c!\"\"), (c!\"hostname\", .str c!\"\"), (c!\"ip\", .str c!\"\"), (c!\"mtu\", .str c!\"\"), (c!\"nameserver\", .str c!\"\"), (c!\"netmask\", .str c!\"\"), (c!\"nodns\", .bool false), (c!\"onboot\", .bool true), (c!\"wepkey\", .str c!\"\"), (c!\"notksdevice\", .bool false), (c!\"noipv4\", .bool false), (c!\"noipv6\", .bool false)]", "bsets": "[]", "rows": {"--bootproto=dhcp": "[]", "--bootproto=bootp": "[(c!\"bootProto\", .str c!\"bootp\")]", "--bootproto=static": "[(c!\"bootProto\", .str c!\"static\")]", "--bootproto=query": "REFUSED", "--dhcpclass=QX": "[(c!\"dhcpclass\", .str c!\"QX\")]", "--device=QX": "[(c!\"device\", .str c!\"QX\")]", "--essid=QX": "[(c!\"essid\", .str c!\"QX\")]", "--ethtool=QX": "[(c!\"ethtool\", .str c!\"QX\")]", "--gateway=QX": "[(c!\"gateway\", .str c!\"QX\")]", "--hostname=QX": "[(c!\"hostname\", .str c!\"QX\")]", "--ip=QX": "[(c!\"ip\", .str c!\"QX\")]", "--mtu=QX": "[(c!\"mtu\", .str c!\"QX\")]", "--nameserver=QX": "[(c!\"nameserver\", .str c!\"QX\")]", "--netmask=QX": "[(c!\"netmask\", .str c!\"QX\")]", "--nodns": "[(c!\"nodns\", .bool true)]", "--onboot=yes": "[]", "--onboot=off": "[(c!\"onboot\", .bool false)]", "--wepkey=QX": "[(c!\"wepkey\", .str c!\"QX\")]", "--notksdevice": "[(c!\"notksdevice\", .bool true)]", "--noipv4": "[(c!\"noipv4\", .bool true)]", "--noipv6": "[(c!\"noipv6\", .bool true)]", "--ipv6=QX": "REFUSED", "--bootproto=ibft": "REFUSED", "--activate": "REFUSED", "--nodefroute": "REFUSED", "--wpakey=QX": "REFUSED", "--bondslaves=QX": "REFUSED", "--bondopts=QX": "REFUSED", "--vlanid=QX": "REFUSED", "--ipv6gateway=QX": "REFUSED", "--teamslaves=QX": "REFUSED", "--teamconfig=QX": "REFUSED", "--interfacename=QX": "REFUSED", "--bridgeslaves=QX": "REFUSED", "--bridgeopts=QX": "REFUSED", "--no-activate": "REFUSED", "--bindto=mac": "REFUSED"}}, "447": {"cmd": "network", "cls": "FC6_Network.cls FC6_NetworkData.cls", "vs": [5000, 4000], "base": "--device=b --bridgeslaves=e", "bi": 1, "lines": ["--bridgeopts=stp=6", "--bridgeopts=stp", "--bridgeslaves=a,b"], "ok": false}, "448": {"cmd": "network", "cls": "FC6_Network.cls FC6_NetworkData.cls", "vs": [5000, 4000], "base": "--bootproto=static --ip=i", "bi": 2, "lines": ["--netmask=QX", "--gateway=QX"], "ok": true, "kind": "L", "d": "[(c!\"lineno\", .int 7), (c!\"bootProto\", .str c!\"static\"), (c!\"dhcpclass\", .str c!\"\"), (c!\"device\", .str c!\"\"), (c!\"essid\", .str c!\"\"), (c!\"ethtool\", .str c!\"\"), (c!\"gateway\", .str c!\"\"), (c!\"hostname\", .str c!\"\"), (c!\"ip\", .str c!\"i\"), (c!\"mtu\", .str c!\"\"), (c!\"nameserver\", .str c!\"\"), (c!\"netmask\", .str c!\"\"), (c!\"nodns\", .bool false), (c!\"onboot\", .bool true), (c!\"wepkey\", .str c!\"\"), (c!\"notksdevice\", .bool false), (c!\"noipv4\", .bool false), (c!\"noipv6\", .bool false)]", "bsets": "[]", "rows": {"--netmask=QX": "[(c!\"netmask\", .str c!\"QX\")]", "--gateway=QX": "[(c!\"gateway\", .str c!\"QX\")]"}}, "449": {"cmd": "network", "cls": "FC6_Network.cls FC6_NetworkData.cls", "vs": [5000, 4000], "base": "--device=t", "bi": 3, "lines": ["--teamslaves=a", "--bondslaves=a,b", "--vlanid=5"], "ok": true, "kind": "L", "d": "[(c!\"lineno\", .int 7), (c!\"bootProto\", .str c!\"dhcp\"), (c!\"dhcpclass\", .str c!\"\"), (c!\"device\", .str c!\"t\"), (c!\"essid\", .str c!\"\"), (c!\"ethtool\", .str c!\"\"), (c!\"gateway\", .str c!\"\"), (c!\"hostname\", .str c!\"\"), (c!\"ip\", .str c!\"\"), (c!\"mtu\", .str c!\"\"), (c!\"nameserver\", .str c!\"\"), (c!\"netmask\", .str c!\"\"), (c!\"nodns\", .bool false), (c!\"onboot\", .bool true), (c!\"wepkey\", .str c!\"\"), (c!\"notksdevice\", .bool false), (c!\"noipv4\", .bool false), (c!\"noipv6\", .bool false)]", "bsets": "[]", "rows": {"--teamslaves=a": "REFUSED", "--bondslaves=a,b": "REFUSED", "--vlanid=5": "REFUSED"}}, "450": {"cmd": "part", "cls": "FC4_Partition.cls FC4_PartData.cls", "vs": [5000, 6000, 2000, 3000, 4000], "base": "/x --size=1", "bi": 0, "lines": ["--active", "--asprimary", "--start=42", "--end=42", "--fstype=QX", "--type=QX", "--grow", "--maxsize=42", "--noformat", "--onbiosdisk=QX", "--ondisk=QX", "--ondrive=QX", "--onpart=QX", "--usepart=QX", "--recommended", "--size=42", "--fsoptions=QX", "--label=QX", "--bytes-per-inode=QX", "--fsprofile=QX", "--encrypted", "--passphrase=QX", "--start=QX", "--end=QX", "--escrowcert=QX", "--backuppassphrase", "--resize", "--hibernation", "--cipher=QX", "--mkfsoptions=QX", "--luks-version=QX", "--pbkdf=QX", "--pbkdf-memory=42", "--pbkdf-time=42", "--pbkdf-iterations=42", "--bytes-per-inode=42"], "ok": true, "kind": "L", "d": "[(c!\"lineno\", .int 7), (c!\"active\", .bool false), (c!\"primOnly\", .bool false), (c!\"end\", .int 0), (c!\"fstype\", .str c!\"\"), (c!\"grow\", .bool false), (c!\"maxSizeMB\", .int 0), (c!\"format\", .bool true), (c!\"onbiosdisk\", .str c!\"\"), (c!\"disk\", .str c!\"\"), (c!\"onPart\", .str c!\"\"), (c!\"recommended\", .bool false), (c!\"size\", .int 1), (c!\"start\", .int 0), (c!\"mountpoint\", .str c!\"/x\"), (c!\"bytesPerInode\", .int 4096), (c!\"fsopts\", .str c!\"\"), (c!\"label\", .str c!\"\"), (c!\"mntpoint\", .list [c!\"/x\"])]", "bsets": "[]", "rows": {"--active": "[(c!\"active\", .bool true)]", "--asprimary": "[(c!\"primOnly\", .bool true)]", "--start=42": "[(c!\"start\", .int 42)]", "--end=42": "[(c!\"end\", .int 42)]", "--fstype=QX": "[(c!\"fstype\", .str c!\"QX\")]", "--type=QX": "[(c!\"fstype\", .str c!\"QX\")]", "--grow": "[(c!\"grow\", .bool true)]", "--maxsize=42": "[(c!\"maxSizeMB\", .int 42)]", "--noformat": "[(c!\"format\", .bool false)]", "--onbiosdisk=QX": "[(c!\"onbiosdisk\", .str c!\"QX\")]", "--ondisk=QX": "[(c!\"disk\", .str c!\"QX\")]", "--ondrive=QX": "[(c!\"disk\", .str c!\"QX\")]", "--onpart=QX": "[(c!\"onPart\", .str c!\"QX\")]", "--usepart=QX": "[(c!\"onPart\", .str c!\"QX\")]", "--recommended": "[(c!\"recommended\", .bool true)]", "--size=42": "[(c!\"size\", .int 42)]", "--fsoptions=QX": "[(c!\"fsopts\", .str c!\"QX\")]", "--label=QX": "[(c!\"label\", .str c!\"QX\")]", "--bytes-per-inode=QX": "REFUSED", "--fsprofile=QX": "REFUSED", "--encrypted": "REFUSED", "--passphrase=QX": "REFUSED", "--start=QX": "REFUSED", "--end=QX": "REFUSED", "--escrowcert=QX": "REFUSED", "--backuppassphrase": "REFUSED", "--resize": "REFUSED", "--hibernation": "REFUSED", "--cipher=QX": "REFUSED", "--mkfsoptions=QX": "REFUSED", "--luks-version=QX": "REFUSED", "--pbkdf=QX": "REFUSED", "--pbkdf-memory=42": "REFUSED", "--pbkdf-time=42": "REFUSED", "--pbkdf-iterations=42": "REFUSED", "--bytes-per-inode=42": "[(c!\"bytesPerInode\", .int 42)]"}}, "451": {"cmd": "part", "cls": "FC4_Partition.cls FC4_PartData.cls", "vs": [5000, 6000, 2000, 3000, 4000], "base": "/x --onpart=sda1 --size=1", "bi": 1, "lines": ["--resize", "--noformat"], "ok": true, "kind": "L", "d": "[(c!\"lineno\", .int 7), (c!\"active\", .bool false), (c!\"primOnly\", .bool false), (c!\"end\", .int 0), (c!\"fstype\", .str c!\"\"), (c!\"grow\", .bool false), (c!\"maxSizeMB\", .int 0), (c!\"format\", .bool true), (c!\"onbiosdisk\", .str c!\"\"), (c!\"disk\", .str c!\"\"), (c!\"onPart\", .str c!\"sda1\"), (c!\"recommended\", .bool false), (c!\"size\", .int 1), (c!\"start\", .int 0), (c!\"mountpoint\", .str c!\"/x\"), (c!\"bytesPerInode\", .int 4096), (c!\"fsopts\", .str c!\"\"), (c!\"label\", .str c!\"\"), (c!\"mntpoint\", .list [c!\"/x\"])]", "bsets": "[]", "rows": {"--resize": "REFUSED", "--noformat": "[(c!\"format\", .bool false)]"}}, "452": {"cmd": "partition", "cls": "FC4_Partition.cls FC4_PartData.cls", "vs": [5000, 6000, 2000, 3000, 4000], "base": "/x --size=1", "bi": 0, "lines": ["--active", "--asprimary", "--start=42", "--end=42", "--fstype=QX", "--type=QX", "--grow", "--maxsize=42", "--noformat", "--onbiosdisk=QX", "--ondisk=QX", "--ondrive=QX", "--onpart=QX", "--usepart=QX", "--recommended", "--size=42", "--fsoptions=QX", "--label=QX", "--bytes-per-inode=QX", "--fsprofile=QX", "--encrypted", "--passphrase=QX", "--start=QX", "--end=QX", "--escrowcert=QX", "--backuppassphrase", "--resize", "--hibernation", "--cipher=QX", "--mkfsoptions=QX", "--luks-version=QX", "--pbkdf=QX", "--pbkdf-memory=42", "--pbkdf-time=42", "--pbkdf-iterations=42", "--bytes-per-inode=42"], "ok": true, "kind": "L", "d": "[(c!\"lineno\", .int 7), (c!\"active\", .bool false), (c!\"primOnly\", .bool false), (c!\"end\", .int 0), (c!\"fstype\", .str c!\"\"), (c!\"grow\", .bool false), (c!\"maxSizeMB\", .int 0), (c!\"format\", .bool true), (c!\"onbiosdisk\", .str c!\"\"), (c!\"disk\", .str c!\"\"), (c!\"onPart\", .str c!\"\"), (c!\"recommended\", .bool false), (c!\"size\", .int 1), (c!\"start\", .int 0), (c!\"mountpoint\", .str c!\"/x\"), (c!\"bytesPerInode\", .int 4096), (c!\"fsopts\", .str c!\"\"), (c!\"label\", .str c!\"\"), (c!\"mntpoint\", .list [c!\"/x\"])]", "bsets": "[]", "rows": {"--active": "[(c!\"active\", .bool true)]", "--asprimary": "[(c!\"primOnly\", .bool true)]", "--start=42": "[(c!\"start\", .int 42)]", "--end=42": "[(c!\"end\", .int 42)]", "--fstype=QX": "[(c!\"fstype\", .str c!\"QX\")]", "--type=QX": "[(c!\"fstype\", .str c!\"QX\")]", "--grow": "[(c!\"grow\", .bool true)]", "--maxsize=42": "[(c!\"maxSizeMB\", .int 42)]", "--noformat": "[(c!\"format\", .bool false)]", "--onbiosdisk=QX": "[(c!\"onbiosdisk\", .str c!\"QX\")]", "--ondisk=QX": "[(c!\"disk\", .str c!\"QX\")]", "--ondrive=QX": "[(c!\"disk\", .str c!\"QX\")]", "--onpart=QX": "[(c!\"onPart\", .str c!\"QX\")]", "--usepart=QX": "[(c!\"onPart\", .str c!\"QX\")]", "--recommended": "[(c!\"recommended\", .bool true)]", "--size=42": "[(c!\"size\", .int 42)]", "--fsoptions=QX": "[(c!\"fsopts\", .str c!\"QX\")]", "--label=QX": "[(c!\"label\", .str c!\"QX\")]", "--bytes-per-inode=QX": "REFUSED", "--fsprofile=QX": "REFUSED", "--encrypted": "REFUSED", "--passphrase=QX": "REFUSED", "--start=QX": "REFUSED", "--end=QX": "REFUSED", "--escrowcert=QX": "REFUSED", "--backuppassphrase": "REFUSED", "--resize": "REFUSED", "--hibernation": "REFUSED", "--cipher=QX": "REFUSED", "--mkfsoptions=QX": "REFUSED", "--luks-version=QX": "REFUSED", "--pbkdf=QX": "REFUSED", "--pbkdf-memory=42": "REFUSED", "--pbkdf-time=42": "REFUSED", "--pbkdf-iterations=42": "REFUSED", "--bytes-per-inode=42": "[(c!\"bytesPerInode\", .int 42)]"}}, "453": {"cmd": "partition", "cls": "FC4_Partition.cls FC4_PartData.cls", "vs": [5000, 6000, 2000, 3000, 4000], "base": "/x --onpart=sda1 --size=1", "bi": 1, "lines": ["--resize", "--noformat"], "ok": true, "kind": "L", "d": "[(c!\"lineno\", .int 7), (c!\"active\", .bool false), (c!\"primOnly\", .bool false), (c!\"end\", .int 0), (c!\"fstype\", .str c!\"\"), (c!\"grow\", .bool false), (c!\"maxSizeMB\", .int 0), (c!\"format\", .bool true), (c!\"onbiosdisk\", .str c!\"\"), (c!\"disk\", .str c!\"\"), (c!\"onPart\", .str c!\"sda1\"), (c!\"recommended\", .bool false), (c!\"size\", .int 1), (c!\"start\", .int 0), (c!\"mountpoint\", .str c!\"/x\"), (c!\"bytesPerInode\", .int 4096), (c!\"fsopts\", .str c!\"\"), (c!\"label\", .str c!\"\"), (c!\"mntpoint\", .list [c!\"/x\"])]", "bsets": "[]", "rows": {"--resize": "REFUSED", "--noformat": "[(c!\"format\", .bool false)]"}}, "454": {"cmd": "raid", "cls": "F7_Raid.cls F7_RaidData.cls", "vs": [5000, 6000], "base": "/x --device=1 --level=RAID1 raid.1 raid.2", "bi": 0, "lines": ["--device=QX", "--fstype=QX", "--level=RAID0", "--level=0", "--level=RAID1", "--level=1", "--level=RAID5", "--level=5", "--level=RAID6", "--level=6", "--level=RAID10", "--level=10", "--noformat", "--spares=42", "--useexisting", "--fsoptions=QX", "--bytes-per-inode=QX", "--fsprofile=QX", "--encrypted", "--passphrase=QX", "--escrowcert=QX", "--backuppassphrase", "--level=RAID4", "--level=4", "--label=QX", "--cipher=QX", "--mkfsoptions=QX", "--chunksize=42", "--luks-version=QX", "--pbkdf=QX", "--pbkdf-memory=42", "--pbkdf-time=42", "--pbkdf-iterations=42", "--bytes-per-inode=42"], "ok": true, "kind": "L", "d": "[(c!\"lineno\", .int 7), (c!\"device\", .int 1), (c!\"fstype\", .str c!\"\"), (c!\"level\", .str c!\"RAID1\"), (c!\"format\", .bool true), (c!\"spares\", .int 0), (c!\"preexist\", .bool false), (c!\"mountpoint\", .str c!\"/x\"), (c!\"members\", .list [c!\"raid.1\", c!\"raid.2\"]), (c!\"fsopts\", .str c!\"\"), (c!\"bytesPerInode\", .int 4096), (c!\"mntpoint\", .list [c!\"/x\"]), (c!\"partitions\", .list [c!\"raid.1\", c!\"raid.2\"])]", "bsets": "[]", "rows": {"--device=QX": "REFUSED", "--fstype=QX": "[(c!\"fstype\", .str c!\"QX\")]", "--level=RAID0": "[(c!\"level\", .str c!\"RAID0\")]", "--level=0": "[(c!\"level\", .str c!\"RAID0\")]", "--level=RAID1": "[]", "--level=1": "[]", "--level=RAID5": "[(c!\"level\", .str c!\"RAID5\")]", "--level=5": "[(c!\"level\", .str c!\"RAID5\")]", "--level=RAID6": "[(c!\"level\", .str c!\"RAID6\")]", "--level=6": "[(c!\"level\", .str c!\"RAID6\")]", "--level=RAID10": "[(c!\"level\", .str c!\"RAID10\")]", "--level=10": "[(c!\"level\", .str c!\"RAID10\")]", "--noformat": "REFUSED", "--spares=42": "[(c!\"spares\", .int 42)]", "--useexisting": "REFUSED", "--fsoptions=QX": "[(c!\"fsopts\", .str c!\"QX\")]", "--bytes-per-inode=QX": "REFUSED", "--fsprofile=QX": "REFUSED", "--encrypted": "REFUSED", "--passphrase=QX": "REFUSED", "--escrowcert=QX": "REFUSED", "--backuppassphrase": "REFUSED", "--level=RAID4": "REFUSED", "--level=4": "REFUSED", "--label=QX": "REFUSED", "--cipher=QX": "REFUSED", "--mkfsoptions=QX": "REFUSED", "--chunksize=42": "REFUSED", "--luks-version=QX": "REFUSED", "--pbkdf=QX": "REFUSED", "--pbkdf-memory=42": "REFUSED", "--pbkdf-time=42": "REFUSED", "--pbkdf-iterations=42": "REFUSED", "--bytes-per-inode=42": "[(c!\"bytesPerInode\", .int 42)]"}}, "455": {"cmd": "raid", "cls": "F7_Raid.cls F7_RaidData.cls", "vs": [5000, 6000], "base": "/x --device=1 --noformat", "bi": 1, "lines": ["--fstype=ext4", "--label=QX"], "ok": true, "kind": "L", "d": "[(c!\"lineno\", .int 7), (c!\"device\", .int 1), (c!\"fstype\", .str c!\"\"), (c!\"level\", .str c!\"\"), (c!\"format\", .bool false), (c!\"spares\", .int 0), (c!\"preexist\", .bool true), (c!\"mountpoint\", .str c!\"/x\"), (c!\"members\", .list []), (c!\"fsopts\", .str c!\"\"), (c!\"bytesPerInode\", .int 4096), (c!\"mntpoint\", .list [c!\"/x\"]), (c!\"partitions\", .list [])]", "bsets": "[]", "rows": {"--fstype=ext4": "[(c!\"fstype\", .str c!\"ext4\")]", "--label=QX": "REFUSED"}}, "456": {"cmd": "raid", "cls": "F7_Raid.cls F7_RaidData.cls", "vs": [5000, 6000], "base": "/x --device=1 --useexisting", "bi": 2, "lines": ["--fstype=ext4", "--label=QX"], "ok": true, "kind": "L", "d": "[(c!\"lineno\", .int 7), (c!\"device\", .int 1), (c!\"fstype\", .str c!\"\"), (c!\"level\", .str c!\"\"), (c!\"format\", .bool true), (c!\"spares\", .int 0), (c!\"preexist\", .bool true), (c!\"mountpoint\", .str c!\"/x\"), (c!\"members\", .list []), (c!\"fsopts\", .str c!\"\"), (c!\"bytesPerInode\", .int 4096), (c!\"mntpoint\", .list [c!\"/x\"]), (c!\"partitions\", .list [])]", "bsets": "[]", "rows": {"--fstype=ext4": "[(c!\"fstype\", .str c!\"ext4\")]", "--label=QX": "REFUSED"}}, "457": {"cmd": "raid", "cls": "F7_Raid.cls F7_RaidData.cls", "vs": [5000, 6000], "base": "/x --device=1 --level=RAID1 raid.1 raid.2 raid.3", "bi": 3, "lines": ["--device=md7", "--device=data", "--level=0", "--level=RAID5", "--level=raid6", "--level=10", "--level=linear", "--spares=1", "--spares=2"], "ok": true, "kind": "L", "d": "[(c!\"lineno\", .int 7), (c!\"device\", .int 1), (c!\"fstype\", .str c!\"\"), (c!\"level\", .str c!\"RAID1\"), (c!\"format\", .bool true), (c!\"spares\", .int 0), (c!\"preexist\", .bool false), (c!\"mountpoint\", .str c!\"/x\"), (c!\"members\", .list [c!\"raid.1\", c!\"raid.2\", c!\"raid.3\"]), (c!\"fsopts\", .str c!\"\"), (c!\"bytesPerInode\", .int 4096), (c!\"mntpoint\", .list [c!\"/x\"]), (c!\"partitions\", .list [c!\"raid.1\", c!\"raid.2\", c!\"raid.3\"])]", "bsets": "[]", "rows": {"--device=md7": "[(c!\"device\", .int 7)]", "--device=data": "REFUSED", "--level=0": "[(c!\"level\", .str c!\"RAID0\")]", "--level=RAID5": "[(c!\"level\", .str c!\"RAID5\")]", "--level=raid6": "[(c!\"level\", .str c!\"RAID6\")]", "--level=10": "[(c!\"level\", .str c!\"RAID10\")]", "--level=linear": "REFUSED", "--spares=1": "[(c!\"spares\", .int 1)]", "--spares=2": "[(c!\"spares\", .int 2)]"}}, "458": {"cmd": "repo", "cls": "FC6_Repo.cls FC6_RepoData.cls", "vs": [5000, 4000, 4100], "base": "--name=r --baseurl=b", "bi": 0, "lines": ["--name=QX", "--baseurl=QX", "--mirrorlist=QX", "--cost=42", "--excludepkgs=QX", "--includepkgs=QX", "--ignoregroups=yes", "--ignoregroups=off", "--proxy=QX", "--noverifyssl", "--install", "--metalink=QX", "--sslcacert=QX", "--sslclientcert=QX", "--sslclientkey=QX"], "ok": true, "kind": "L", "d": "[(c!\"lineno\", .int 7), (c!\"baseurl\", .str c!\"b\"), (c!\"mirrorlist\", .none), (c!\"name\", .str c!\"r\")]", "bsets": "[]", "rows": {"--name=QX": "[(c!\"name\", .str c!\"QX\")]", "--baseurl=QX": "[(c!\"baseurl\", .str c!\"QX\")]", "--mirrorlist=QX": "REFUSED", "--cost=42": "REFUSED", "--excludepkgs=QX": "REFUSED", "--includepkgs=QX": "REFUSED", "--ignoregroups=yes": "REFUSED", "--ignoregroups=off": "REFUSED", "--proxy=QX": "REFUSED", "--noverifyssl": "REFUSED", "--install": "REFUSED", "--metalink=QX": "REFUSED", "--sslcacert=QX": "REFUSED", "--sslclientcert=QX": "REFUSED", "--sslclientkey=QX": "REFUSED"}}, "459": {"cmd": "repo", "cls": "FC6_Repo.cls FC6_RepoData.cls", "vs": [5000, 4000, 4100], "base": "--name=r --mirrorlist=m", "bi": 1, "lines": ["--baseurl=QX", "--metalink=QX"], "ok": true, "kind": "L", "d": "[(c!\"lineno\", .int 7), (c!\"baseurl\", .str c!\"\"), (c!\"mirrorlist\", .str c!\"m\"), (c!\"name\", .str c!\"r\")]", "bsets": "[]", "rows": {"--baseurl=QX": "REFUSED", "--metalink=QX": "REFUSED"}}, "460": {"cmd": "repo", "cls": "FC6_Repo.cls FC6_RepoData.cls", "vs": [5000, 4000, 4100], "base": "--name=r --metalink=m", "bi": 2, "lines": ["--mirrorlist=QX"], "ok": false}, "461": {"cmd": "rootpw", "cls": "FC3_RootPw.cls", "vs": [5000, 1000, 2000, 3000, 4000, 900, 1100, 4100], "base": "P", "bi": 0, "lines": ["--iscrypted", "--lock", "--plaintext"], "ok": true, "kind": "P", "d": "[(c!\"isCrypted\", .bool false), (c!\"password\", .str c!\"P\")]", "bsets": "[(c!\"password\", .str c!\"P\")]", "rows": {"--iscrypted": "[(c!\"isCrypted\", .bool true)]", "--lock": "REFUSED", "--plaintext": "REFUSED"}}, "462": {"cmd": "rootpw", "cls": "FC3_RootPw.cls", "vs": [5000, 1000, 2000, 3000, 4000, 900, 1100, 4100], "base": "--lock", "bi": 1, "lines": ["--iscrypted", "--plaintext"], "ok": false}, "463": {"cmd": "user", "cls": "FC6_User.cls FC6_UserData.cls", "vs": [5000, 4000, 4100], "base": "--name=u", "bi": 0, "lines": ["--groups=QX", "--homedir=QX", "--iscrypted", "--name=QX", "--password=QX", "--shell=QX", "--uid=42", "--lock", "--plaintext", "--gecos=QX", "--gid=42"], "ok": true, "kind": "L", "d": "[(c!\"lineno\", .int 7), (c!\"groups\", .list []), (c!\"homedir\", .str c!\"\"), (c!\"isCrypted\", .bool false), (c!\"name\", .str c!\"u\"), (c!\"password\", .str c!\"\"), (c!\"shell\", .str c!\"\"), (c!\"uid\", .none)]", "bsets": "[]", "rows": {"--groups=QX": "[(c!\"groups\", .list [c!\"QX\"])]", "--homedir=QX": "[(c!\"homedir\", .str c!\"QX\")]", "--iscrypted": "[(c!\"isCrypted\", .bool true)]", "--name=QX": "[(c!\"name\", .str c!\"QX\")]", "--password=QX": "[(c!\"password\", .str c!\"QX\")]", "--shell=QX": "[(c!\"shell\", .str c!\"QX\")]", "--uid=42": "[(c!\"uid\", .int 42)]", "--lock": "REFUSED", "--plaintext": "REFUSED", "--gecos=QX": "REFUSED", "--gid=42": "REFUSED"}}, "464": {"cmd": "vnc", "cls": "FC6_Vnc.cls", "vs": [5000, 6000, 4000, 4100], "base": "", "bi": 0, "lines": ["--password=QX", "--host=QX", "--port=QX", "--connect=QX"], "ok": true, "kind": "P", "d": "[(c!\"enabled\", .bool true), (c!\"password\", .str c!\"\"), (c!\"host\", .str c!\"\"), (c!\"port\", .str c!\"\")]", "bsets": "[(c!\"enabled\", .bool true)]", "rows": {"--password=QX": "[(c!\"password\", .str c!\"QX\")]", "--host=QX": "[(c!\"host\", .str c!\"QX\")]", "--port=QX": "[(c!\"port\", .str c!\"QX\")]", "--connect=QX": "[(c!\"host\", .str c!\"QX\")]"}}, "465": {"cmd": "xconfig", "cls": "FC6_XConfig.cls", "vs": [5000, 6000, 4000, 4100], "base": "", "bi": 0, "lines": ["--defaultdesktop=QX", "--startxonboot", "--driver=QX", "--depth=QX", "--resolution=QX", "--videoram=QX", "--depth=42", "--card=QX", "--hsync=QX", "--monitor=QX", "--noprobe=QX", "--vsync=QX", "--noprobe", "--server=QX"], "ok": true, "kind": "P", "d": "[(c!\"defaultdesktop\", .str c!\"\"), (c!\"depth\", .int 0), (c!\"resolution\", .str c!\"\"), (c!\"startX\", .bool false), (c!\"videoRam\", .str c!\"\"), (c!\"driver\", .str c!\"\")]", "bsets": "[]", "rows": {"--defaultdesktop=QX": "[(c!\"defaultdesktop\", .str c!\"QX\")]", "--startxonboot": "[(c!\"startX\", .bool true)]", "--driver=QX": "[(c!\"driver\", .str c!\"QX\")]", "--depth=QX": "REFUSED", "--resolution=QX": "[(c!\"resolution\", .str c!\"QX\")]", "--videoram=QX": "[(c!\"videoRam\", .str c!\"QX\")]", "--depth=42": "[(c!\"depth\", .int 42)]", "--card=QX": "[(c!\"card\", .str c!\"QX\")]", "--hsync=QX": "[(c!\"hsync\", .str c!\"QX\")]", "--monitor=QX": "[(c!\"monitor\", .str c!\"QX\")]", "--noprobe=QX": "[(c!\"noprobe\", .str c!\"QX\")]", "--vsync=QX": "[(c!\"vsync\", .str c!\"QX\")]", "--noprobe": "REFUSED", "--server=QX": "REFUSED"}}, "466": {"cmd": "zerombr", "cls": "FC3_ZeroMbr.cls", "vs": [5000, 6000, 1000, 2000, 3000, 4000, 900, 1100, 4100], "base": "", "bi": 0, "lines": ["x", "yes"], "ok": true, "kind": "P", "d": "[(c!\"zerombr\", .bool true)]", "bsets": "[(c!\"zerombr\", .bool true)]", "rows": {"x": "[]", "yes": "[]"}}, "467": {"cmd": "network", "cls": "F8_Network.cls F8_NetworkData.cls", "vs": [6000], "base": "", "bi": 0, "lines": ["--bootproto=dhcp", "--bootproto=bootp", "--bootproto=static", "--bootproto=query", "--dhcpclass=QX", "--device=QX", "--essid=QX", "--ethtool=QX", "--gateway=QX", "--hostname=QX", "--ip=QX", "--mtu=QX", "--nameserver=QX", "--netmask=QX", "--nodns", "--onboot=yes", "--onboot=off", "--wepkey=QX", "--notksdevice", "--noipv4", "--noipv6", "--ipv6=QX", "--bootproto=ibft", "--activate", "--nodefroute", "--wpakey=QX", "--bondslaves=QX", "--bondopts=QX", "--vlanid=QX", "--ipv6gateway=QX", "--teamslaves=QX", "--teamconfig=QX", "--interfacename=QX", "--bridgeslaves=QX", "--bridgeopts=QX", "--no-activate", "--bindto=mac"], "ok": true, "kind": "L", "d": "[(c!\"lineno\", .int 7), (c!\"bootProto\", .str c!\"dhcp\"), (c!\"dhcpclass\", .str c!\"\"), (c!\"device\", .str c!\"\"), (c!\"essid\", .str c!\"\"), (c!\"ethtool\", .str c!\"\"), (c!\"gateway\", .str c!\"\"), (c!\"hostname\", .str c!\"\"), (c!\"ip\", .str c!\"\"), (c!\"mtu\", .str c!\"\"), (c!\"nameserver\", .str c!\"\"), (c!\"netmask\", .str c!\"\"), (c!\"nodns\", .bool false), (c!\"onboot\", .bool true), (c!\"wepkey\", .str c!\"\"), (c!\"notksdevice\", .bool false), (c!\"noipv4\", .bool false), (c!\"noipv6\", .bool false), (c!\"ipv6\", .str c!\"\")]", "bsets": "[]", "rows": {"--bootproto=dhcp": "[]", "--bootproto=bootp": "[(c!\"bootProto\", .str c!\"bootp\")]", "--bootproto=static": "[(c!\"bootProto\", .str c!\"static\")]", "--bootproto=query": "REFUSED", "--dhcpclass=QX": "[(c!\"dhcpclass\", .str c!\"QX\")]", "--device=QX": "[(c!\"device\", .str c!\"QX\")]", "--essid=QX": "[(c!\"essid\", .str c!\"QX\")]", "--ethtool=QX": "[(c!\"ethtool\", .str c!\"QX\")]", "--gateway=QX": "[(c!\"gateway\", .str c!\"QX\")]", "--hostname=QX": "[(c!\"hostname\", .str c!\"QX\")]", "--ip=QX": "[(c!\"ip\", .str c!\"QX\")]", "--mtu=QX": "[(c!\"mtu\", .str c!\"QX\")]", "--nameserver=QX": "[(c!\"nameserver\", .str c!\"QX\")]", "--netmask=QX": "[(c!\"netmask\", .str c!\"QX\")]", "--nodns": "[(c!\"nodns\", .bool true)]", "--onboot=yes": "[]", "--onboot=off": "[(c!\"onboot\", .bool false)]", "--wepkey=QX": "[(c!\"wepkey\", .str c!\"QX\")]", "--notksdevice": "[(c!\"notksdevice\", .bool true)]", "--noipv4": "[(c!\"noipv4\", .bool true)]", "--noipv6": "[(c!\"noipv6\", .bool true)]", "--ipv6=QX": "[(c!\"ipv6\", .str c!\"QX\")]", "--bootproto=ibft": "REFUSED", "--activate": "REFUSED", "--nodefroute": "REFUSED", "--wpakey=QX": "REFUSED", "--bondslaves=QX": "REFUSED", "--bondopts=QX": "REFUSED", "--vlanid=QX": "REFUSED", "--ipv6gateway=QX": "REFUSED", "--teamslaves=QX": "REFUSED", "--teamconfig=QX": "REFUSED", "--interfacename=QX": "REFUSED", "--bridgeslaves=QX": "REFUSED", "--bridgeopts=QX": "REFUSED", "--no-activate": "REFUSED", "--bindto=mac": "REFUSED"}}, "468": {"cmd": "network", "cls": "F8_Network.cls F8_NetworkData.cls", "vs": [6000], "base": "--device=b --bridgeslaves=e", "bi": 1, "lines": ["--bridgeopts=stp=6", "--bridgeopts=stp", "--bridgeslaves=a,b"], "ok": false}, "469": {"cmd": "network", "cls": "F8_Network.cls F8_NetworkData.cls", "vs": [6000], "base": "--bootproto=static --ip=i", "bi": 2, "lines": ["--netmask=QX", "--gateway=QX"], "ok": true, "kind": "L", "d": "[(c!\"lineno\", .int 7), (c!\"bootProto\", .str c!\"static\"), (c!\"dhcpclass\", .str c!\"\"), (c!\"device\", .str c!\"\"), (c!\"essid\", .str c!\"\"), (c!\"ethtool\", .str c!\"\"), (c!\"gateway\", .str c!\"\"), (c!\"hostname\", .str c!\"\"), (c!\"ip\", .str c!\"i\"), (c!\"mtu\", .str c!\"\"), (c!\"nameserver\", .str c!\"\"), (c!\"netmask\", .str c!\"\"), (c!\"nodns\", .bool false), (c!\"onboot\", .bool true), (c!\"wepkey\", .str c!\"\"), (c!\"notksdevice\", .bool false), (c!\"noipv4\", .bool false), (c!\"noipv6\", .bool false), (c!\"ipv6\", .str c!\"\")]", "bsets": "[]", "rows": {"--netmask=QX": "[(c!\"netmask\", .str c!\"QX\")]", "--gateway=QX": "[(c!\"gateway\", .str c!\"QX\")]"}}, "470": {"cmd": "network", "cls": "F8_Network.cls F8_NetworkData.cls", "vs": [6000], "base": "--device=t", "bi": 3, "lines": ["--teamslaves=a", "--bondslaves=a,b", "--vlanid=5"], "ok": true, "kind": "L", "d": "[(c!\"lineno\", .int 7), (c!\"bootProto\", .str c!\"dhcp\"), (c!\"dhcpclass\", .str c!\"\"), (c!\"device\", .str c!\"t\"), (c!\"essid\", .str c!\"\"), (c!\"ethtool\", .str c!\"\"), (c!\"gateway\", .str c!\"\"), (c!\"hostname\", .str c!\"\"), (c!\"ip\", .str c!\"\"), (c!\"mtu\", .str c!\"\"), (c!\"nameserver\", .str c!\"\"), (c!\"netmask\", .str c!\"\"), (c!\"nodns\", .bool false), (c!\"onboot\", .bool true), (c!\"wepkey\", .str c!\"\"), (c!\"notksdevice\", .bool false), (c!\"noipv4\", .bool false), (c!\"noipv6\", .bool false), (c!\"ipv6\", .str c!\"\")]", "bsets": "[]", "rows": {"--teamslaves=a": "REFUSED", "--bondslaves=a,b": "REFUSED", "--vlanid=5": "REFUSED"}}, "471": {"cmd": "firewall", "cls": "F9_Firewall.cls", "vs": [7000], "base": "", "bi": 0, "lines": ["--disable", "--disabled", "--enable", "--enabled", "--port=QX:tcp", "--trust=QX", "--service=QX", "--ftp", "--http", "--smtp", "--ssh", "--telnet=QX", "--remove-service=QX", "--use-system-defaults", "--telnet", "--high=QX", "--medium=QX"], "ok": true, "kind": "P", "d": "[(c!\"enabled\", .bool true), (c!\"ports\", .list []), (c!\"trusts\", .list [])]", "bsets": "[(c!\"enabled\", .bool true)]", "rows": {"--disable": "[(c!\"enabled\", .bool false)]", "--disabled": "[(c!\"enabled\", .bool false)]", "--enable": "[]", "--enabled": "[]", "--port=QX:tcp": "[(c!\"ports\", .list [c!\"QX:tcp\"])]", "--trust=QX": "[(c!\"trusts\", .list [c!\"QX\"])]", "--service=QX": "REFUSED", "--ftp": "[(c!\"ports\", .list [c!\"21:tcp\"])]", "--http": "[(c!\"ports\", .list [c!\"80:tcp\", c!\"443:tcp\"])]", "--smtp": "[(c!\"ports\", .list [c!\"25:tcp\"])]", "--ssh": "[(c!\"ports\", .list [c!\"22:tcp\"])]", "--telnet=QX": "REFUSED", "--remove-service=QX": "REFUSED", "--use-system-defaults": "REFUSED", "--telnet": "[(c!\"ports\", .list [c!\"23:tcp\"])]", "--high=QX": "REFUSED", "--medium=QX": "REFUSED"}}, "472": {"cmd": "xconfig", "cls": "F9_XConfig.cls", "vs": [7000], "base": "", "bi": 0, "lines": ["--defaultdesktop=QX", "--startxonboot", "--driver=QX", "--depth=QX", "--resolution=QX", "--videoram=QX", "--depth=42", "--card=QX", "--hsync=QX", "--monitor=QX", "--noprobe=QX", "--vsync=QX", "--noprobe", "--server=QX"], "ok": true, "kind": "P", "d": "[(c!\"defaultdesktop\", .str c!\"\"), (c!\"depth\", .int 0), (c!\"resolution\", .str c!\"\"), (c!\"startX\", .bool false), (c!\"videoRam\", .str c!\"\"), (c!\"driver\", .str c!\"\")]", "bsets": "[]", "rows": {"--defaultdesktop=QX": "[(c!\"defaultdesktop\", .str c!\"QX\")]", "--startxonboot": "[(c!\"startX\", .bool true)]", "--driver=QX": "[(c!\"driver\", .str c!\"QX\")]", "--depth=QX": "REFUSED", "--resolution=QX": "[(c!\"resolution\", .str c!\"QX\")]", "--videoram=QX": "[(c!\"videoRam\", .str c!\"QX\")]", "--depth=42": "[(c!\"depth\", .int 42)]", "--card=QX": "REFUSED", "--hsync=QX": "REFUSED", "--monitor=QX": "REFUSED", "--noprobe=QX": "REFUSED", "--vsync=QX": "REFUSED", "--noprobe": "REFUSED", "--server=QX": "REFUSED"}}, "473": {"cmd": "bootloader", "cls": "FC3_Bootloader.cls", "vs": [1000, 900, 1100], "base": "", "bi": 0, "lines": ["--append=QX", "--location=mbr", "--location=partition", "--location=none", "--location=boot", "--lba32", "--password=QX", "--md5pass=QX", "--upgrade", "--driveorder=QX", "--timeout=42", "--default=QX", "--iscrypted", "--boot-drive=QX", "--leavebootorder", "--extlinux", "--disabled", "--nombr", "--linear", "--nolinear", "--useLilo", "--hvargs=QX"], "ok": true, "kind": "P", "d": "[(c!\"driveorder\", .list []), (c!\"appendLine\", .str c!\"\"), (c!\"forceLBA\", .bool false), (c!\"linear\", .bool true), (c!\"location\", .str c!\"mbr\"), (c!\"md5pass\", .str c!\"\"), (c!\"password\", .str c!\"\"), (c!\"upgrade\", .bool false), (c!\"useLilo\", .bool false)]", "bsets": "[(c!\"location\", .str c!\"mbr\")]", "rows": {"--append=QX": "[(c!\"appendLine\", .str c!\"QX\")]", "--location=mbr": "[]", "--location=partition": "[(c!\"location\", .str c!\"partition\")]", "--location=none": "[(c!\"location\", .str c!\"none\")]", "--location=boot": "[(c!\"location\", .str c!\"boot\")]", "--lba32": "[(c!\"forceLBA\", .bool true)]", "--password=QX": "[(c!\"password\", .str c!\"QX\")]", "--md5pass=QX": "[(c!\"md5pass\", .str c!\"QX\")]", "--upgrade": "[(c!\"upgrade\", .bool true)]", "--driveorder=QX": "[(c!\"driveorder\", .list [c!\"QX\"])]", "--timeout=42": "REFUSED", "--default=QX": "REFUSED", "--iscrypted": "REFUSED", "--boot-drive=QX": "REFUSED", "--leavebootorder": "REFUSED", "--extlinux": "REFUSED", "--disabled": "REFUSED", "--nombr": "REFUSED", "--linear": "[]", "--nolinear": "[(c!\"linear\", .bool false)]", "--useLilo": "[(c!\"useLilo\", .bool true)]", "--hvargs=QX": "REFUSED"}}, "474": {"cmd": "driverdisk", "cls": "FC3_DriverDisk.cls FC3_DriverDiskData.cls", "vs": [1000, 900], "base": "d", "bi": 0, "lines": ["--source=QX", "--type=QX", "--biospart=QX"], "ok": true, "kind": "L", "d": "[(c!\"lineno\", .int 7), (c!\"partition\", .str c!\"d\"), (c!\"source\", .str c!\"\"), (c!\"type\", .str c!\"\")]", "bsets": "[]", "rows": {"--source=QX": "REFUSED", "--type=QX": "[(c!\"type\", .str c!\"QX\")]", "--biospart=QX": "REFUSED"}}, "475": {"cmd": "driverdisk", "cls": "FC3_DriverDisk.cls FC3_DriverDiskData.cls", "vs": [1000, 900], "base": "--source=s", "bi": 1, "lines": [], "ok": true, "kind": "L", "d": "[(c!\"lineno\", .int 7), (c!\"partition\", .list []), (c!\"source\", .str c!\"s\"), (c!\"type\", .str c!\"\")]", "bsets": "[]", "rows": {}}, "476": {"cmd": "driverdisk", "cls": "FC3_DriverDisk.cls FC3_DriverDiskData.cls", "vs": [1000, 900], "base": "--biospart=b", "bi": 2, "lines": [], "ok": false}, "477": {"cmd": "halt", "cls": "FC3_Reboot.cls", "vs": [1000, 2000, 3000, 900, 1100], "base": "", "bi": 0, "lines": ["--eject", "--kexec"], "ok": true, "kind": "P", "d": "[(c!\"action\", .none)]", "bsets": "[]", "rows": {"--eject": "[]", "--kexec": "[]"}}, "478": {"cmd": "langsupport", "cls": "FC3_LangSupport.cls", "vs": [1000, 2000, 900, 1100], "base": "", "bi": 0, "lines": ["--default=QX"], "ok": true, "kind": "P", "d": "[(c!\"deflang\", .str c!\"en_US.UTF-8\"), (c!\"supported\", .list [])]", "bsets": "[(c!\"deflang\", .str c!\"en_US.UTF-8\")]", "rows": {"--default=QX": "[(c!\"deflang\", .str c!\"QX\")]"}}, "479": {"cmd": "lilo", "cls": "FC3_Lilo.cls", "vs": [1000, 900, 1100], "base": "", "bi": 0, "lines": ["--append=QX", "--linear", "--nolinear", "--location=mbr", "--location=partition", "--location=none", "--location=boot", "--lba32", "--password=QX", "--md5pass=QX", "--upgrade", "--useLilo", "--driveorder=QX"], "ok": true, "kind": "P", "d": "[(c!\"driveorder\", .list []), (c!\"appendLine\", .str c!\"\"), (c!\"forceLBA\", .bool false), (c!\"linear\", .bool true), (c!\"location\", .str c!\"mbr\"), (c!\"md5pass\", .str c!\"\"), (c!\"password\", .str c!\"\"), (c!\"upgrade\", .bool false), (c!\"useLilo\", .bool true)]", "bsets": "[(c!\"location\", .str c!\"mbr\"), (c!\"useLilo\", .bool true)]", "rows": {"--append=QX": "[(c!\"appendLine\", .str c!\"QX\")]", "--linear": "[]", "--nolinear": "[(c!\"linear\", .bool false)]", "--location=mbr": "[]", "--location=partition": "[(c!\"location\", .str c!\"partition\")]", "--location=none": "[(c!\"location\", .str c!\"none\")]", "--location=boot": "[(c!\"location\", .str c!\"boot\")]", "--lba32": "[(c!\"forceLBA\", .bool true)]", "--password=QX": "[(c!\"password\", .str c!\"QX\")]", "--md5pass=QX": "[(c!\"md5pass\", .str c!\"QX\")]", "--upgrade": "[(c!\"upgrade\", .bool true)]", "--useLilo": "[]", "--driveorder=QX": "[(c!\"driveorder\", .list [c!\"QX\"])]"}}, "480": {"cmd": "lilocheck", "cls": "FC3_LiloCheck.cls", "vs": [1000, 900, 1100], "base": "", "bi": 0, "lines": ["x"], "ok": true, "kind": "P", "d": "[(c!\"check\", .bool true)]", "bsets": "[(c!\"check\", .bool true)]", "rows": {"x": "REFUSED"}}, "481": {"cmd": "logvol", "cls": "FC3_LogVol.cls FC3_LogVolData.cls", "vs": [1000, 900, 1100], "base": "/x --name=n --vgname=g --size=1", "bi": 0, "lines": ["--fstype=QX", "--grow", "--maxsize=42", "--name=QX", "--noformat", "--percent=42", "--recommended", "--size=42", "--useexisting", "--vgname=QX", "--fsoptions=QX", "--bytes-per-inode=QX", "--fsprofile=QX", "--encrypted", "--passphrase=QX", "--escrowcert=QX", "--backuppassphrase", "--label=QX", "--resize", "--hibernation", "--cipher=QX", "--thinpool", "--thin", "--poolname=QX", "--chunksize=42", "--metadatasize=42", "--profile=QX", "--cachesize=42", "--cachemode=QX", "--cachepvs=QX", "--mkfsoptions=QX", "--luks-version=QX", "--pbkdf=QX", "--pbkdf-memory=42", "--pbkdf-time=42", "--pbkdf-iterations=42", "--bytes-per-inode=42"], "ok": true, "kind": "L", "d": "[(c!\"lineno\", .int 7), (c!\"fstype\", .str c!\"\"), (c!\"grow\", .bool false), (c!\"maxSizeMB\", .int 0), (c!\"name\", .str c!\"n\"), (c!\"format\", .bool true), (c!\"percent\", .int 0), (c!\"recommended\", .bool false), (c!\"size\", .int 1), (c!\"preexist\", .bool false), (c!\"vgname\", .str c!\"g\"), (c!\"mountpoint\", .str c!\"/x\"), (c!\"mntpoint\", .list [c!\"/x\"])]", "bsets": "[]", "rows": {"--fstype=QX": "[(c!\"fstype\", .str c!\"QX\")]", "--grow": "[(c!\"grow\", .bool true)]", "--maxsize=42": "[(c!\"maxSizeMB\", .int 42)]", "--name=QX": "[(c!\"name\", .str c!\"QX\")]", "--noformat": "[(c!\"format\", .bool false), (c!\"preexist\", .bool true)]", "--percent=42": "[(c!\"percent\", .int 42)]", "--recommended": "[(c!\"recommended\", .bool true)]", "--size=42": "[(c!\"size\", .int 42)]", "--useexisting": "[(c!\"preexist\", .bool true)]", "--vgname=QX": "[(c!\"vgname\", .str c!\"QX\")]", "--fsoptions=QX": "REFUSED", "--bytes-per-inode=QX": "REFUSED", "--fsprofile=QX": "REFUSED", "--encrypted": "REFUSED", "--passphrase=QX": "REFUSED", "--escrowcert=QX": "REFUSED", "--backuppassphrase": "REFUSED", "--label=QX": "REFUSED", "--resize": "REFUSED", "--hibernation": "REFUSED", "--cipher=QX": "REFUSED", "--thinpool": "REFUSED", "--thin": "REFUSED", "--poolname=QX": "REFUSED", "--chunksize=42": "REFUSED", "--metadatasize=42": "REFUSED", "--profile=QX": "REFUSED", "--cachesize=42": "REFUSED", "--cachemode=QX": "REFUSED", "--cachepvs=QX": "REFUSED", "--mkfsoptions=QX": "REFUSED", "--luks-version=QX": "REFUSED", "--pbkdf=QX": "REFUSED", "--pbkdf-memory=42": "REFUSED", "--pbkdf-time=42": "REFUSED", "--pbkdf-iterations=42": "REFUSED", "--bytes-per-inode=42": "REFUSED"}}, "482": {"cmd": "logvol", "cls": "FC3_LogVol.cls FC3_LogVolData.cls", "vs": [1000, 900, 1100], "base": "/x --name=n --vgname=g --useexisting", "bi": 1, "lines": ["--size=42", "--resize", "--noformat", "--fstype=ext4"], "ok": true, "kind": "L", "d": "[(c!\"lineno\", .int 7), (c!\"fstype\", .str c!\"\"), (c!\"grow\", .bool false), (c!\"maxSizeMB\", .int 0), (c!\"name\", .str c!\"n\"), (c!\"format\", .bool true), (c!\"percent\", .int 0), (c!\"recommended\", .bool false), (c!\"size\", .none), (c!\"preexist\", .bool true), (c!\"vgname\", .str c!\"g\"), (c!\"mountpoint\", .str c!\"/x\"), (c!\"mntpoint\", .list [c!\"/x\"])]", "bsets": "[]", "rows": {"--size=42": "[(c!\"size\", .int 42)]", "--resize": "REFUSED", "--noformat": "[(c!\"format\", .bool false)]", "--fstype=ext4": "[(c!\"fstype\", .str c!\"ext4\")]"}}, "483": {"cmd": "logvol", "cls": "FC3_LogVol.cls FC3_LogVolData.cls", "vs": [1000, 900, 1100], "base": "/x --name=n --vgname=g", "bi": 2, "lines": ["--percent=42", "--useexisting", "--noformat"], "ok": true, "kind": "L", "d": "[(c!\"lineno\", .int 7), (c!\"fstype\", .str c!\"\"), (c!\"grow\", .bool false), (c!\"maxSizeMB\", .int 0), (c!\"name\", .str c!\"n\"), (c!\"format\", .bool true), (c!\"percent\", .int 0), (c!\"recommended\", .bool false), (c!\"size\", .none), (c!\"preexist\", .bool false), (c!\"vgname\", .str c!\"g\"), (c!\"mountpoint\", .str c!\"/x\"), (c!\"mntpoint\", .list [c!\"/x\"])]", "bsets": "[]", "rows": {"--percent=42": "[(c!\"percent\", .int 42)]", "--useexisting": "[(c!\"preexist\", .bool true)]", "--noformat": "[(c!\"format\", .bool false), (c!\"preexist\", .bool true)]"}}, "484": {"cmd": "logvol", "cls": "FC3_LogVol.cls FC3_LogVolData.cls", "vs": [1000, 900, 1100], "base": "/x --name=n --vgname=g --size=1 --poolname=p", "bi": 3, "lines": ["--thin", "--thinpool", "--label=QX"], "ok": false}, "485": {"cmd": "logvol", "cls": "FC3_LogVol.cls FC3_LogVolData.cls", "vs": [1000, 900, 1100], "base": "none --name=n --vgname=g --size=1 --thinpool", "bi": 4, "lines": ["--chunksize=42", "--metadatasize=42", "--profile=QX", "--grow"], "ok": false}, "486": {"cmd": "logvol", "cls": "FC3_LogVol.cls FC3_LogVolData.cls", "vs": [1000, 900, 1100], "base": "/x --name=n --vgname=g --size=1 --cachepvs=a --cachesize=5", "bi": 5, "lines": ["--cachemode=writeback", "--cachemode=writethrough"], "ok": false}, "487": {"cmd": "monitor", "cls": "FC3_Monitor.cls", "vs": [1000, 2000, 3000, 900, 1100], "base": "", "bi": 0, "lines": ["--hsync=QX", "--monitor=QX", "--vsync=QX", "--noprobe"], "ok": true, "kind": "P", "d": "[(c!\"hsync\", .str c!\"\"), (c!\"monitor\", .str c!\"\"), (c!\"vsync\", .str c!\"\")]", "bsets": "[]", "rows": {"--hsync=QX": "[(c!\"hsync\", .str c!\"QX\")]", "--monitor=QX": "[(c!\"monitor\", .str c!\"QX\")]", "--vsync=QX": "[(c!\"vsync\", .str c!\"QX\")]", "--noprobe": "REFUSED"}}, "488": {"cmd": "network", "cls": "FC3_Network.cls FC3_NetworkData.cls", "vs": [1000], "base": "", "bi": 0, "lines": ["--bootproto=dhcp", "--bootproto=bootp", "--bootproto=static", "--bootproto=query", "--dhcpclass=QX", "--device=QX", "--essid=QX", "--ethtool=QX", "--gateway=QX", "--hostname=QX", "--ip=QX", "--mtu=QX", "--nameserver=QX", "--netmask=QX", "--nodns", "--onboot=yes", "--onboot=off", "--wepkey=QX", "--notksdevice", "--noipv4", "--noipv6", "--ipv6=QX", "--bootproto=ibft", "--activate", "--nodefroute", "--wpakey=QX", "--bondslaves=QX", "--bondopts=QX", "--vlanid=QX", "--ipv6gateway=QX", "--teamslaves=QX", "--teamconfig=QX", "--interfacename=QX", "--bridgeslaves=QX", "--bridgeopts=QX", "--no-activate", "--bindto=mac"], "ok": true, "kind": "L", "d": "[(c!\"lineno\", .int 7), (c!\"bootProto\", .str c!\"dhcp\"), (c!\"dhcpclass\", .str c!\"\"), (c!\"device\", .str c!\"\"), (c!\"essid\", .str c!\"\"), (c!\"ethtool\", .str c!\"\"), (c!\"gateway\", .str c!\"\"), (c!\"hostname\", .str c!\"\"), (c!\"ip\", .str c!\"\"), (c!\"mtu\", .str c!\"\"), (c!\"nameserver\", .str c!\"\"), (c!\"netmask\", .str c!\"\"), (c!\"nodns\", .bool false), (c!\"onboot\", .bool true), (c!\"wepkey\", .str c!\"\")]", "bsets": "[]", "rows": {"--bootproto=dhcp": "[]", "--bootproto=bootp": "[(c!\"bootProto\", .str c!\"bootp\")]", "--bootproto=static": "[(c!\"bootProto\", .str c!\"static\")]", "--bootproto=query": "REFUSED", "--dhcpclass=QX": "[(c!\"dhcpclass\", .str c!\"QX\")]", "--device=QX": "[(c!\"device\", .str c!\"QX\")]", "--essid=QX": "[(c!\"essid\", .str c!\"QX\")]", "--ethtool=QX": "[(c!\"ethtool\", .str c!\"QX\")]", "--gateway=QX": "[(c!\"gateway\", .str c!\"QX\")]", "--hostname=QX": "[(c!\"hostname\", .str c!\"QX\")]", "--ip=QX": "[(c!\"ip\", .str c!\"QX\")]", "--mtu=QX": "[(c!\"mtu\", .str c!\"QX\")]", "--nameserver=QX": "[(c!\"nameserver\", .str c!\"QX\")]", "--netmask=QX": "[(c!\"netmask\", .str c!\"QX\")]", "--nodns": "[(c!\"nodns\", .bool true)]", "--onboot=yes": "[]", "--onboot=off": "[(c!\"onboot\", .bool false)]", "--wepkey=QX": "[(c!\"wepkey\", .str c!\"QX\")]", "--notksdevice": "REFUSED", "--noipv4": "REFUSED", "--noipv6": "REFUSED", "--ipv6=QX": "REFUSED", "--bootproto=ibft": "REFUSED", "--activate": "REFUSED", "--nodefroute": "REFUSED", "--wpakey=QX": "REFUSED", "--bondslaves=QX": "REFUSED", "--bondopts=QX": "REFUSED", "--vlanid=QX": "REFUSED", "--ipv6gateway=QX": "REFUSED", "--teamslaves=QX": "REFUSED", "--teamconfig=QX": "REFUSED", "--interfacename=QX": "REFUSED", "--bridgeslaves=QX": "REFUSED", "--bridgeopts=QX": "REFUSED", "--no-activate": "REFUSED", "--bindto=mac": "REFUSED"}}, "489": {"cmd": "network", "cls": "FC3_Network.cls FC3_NetworkData.cls", "vs": [1000], "base": "--device=b --bridgeslaves=e", "bi": 1, "lines": ["--bridgeopts=stp=6", "--bridgeopts=stp", "--bridgeslaves=a,b"], "ok": false}, "490": {"cmd": "network", "cls": "FC3_Network.cls FC3_NetworkData.cls", "vs": [1000], "base": "--bootproto=static --ip=i", "bi": 2, "lines": ["--netmask=QX", "--gateway=QX"], "ok": true, "kind": "L", "d": "[(c!\"lineno\", .int 7), (c!\"bootProto\", .str c!\"static\"), (c!\"dhcpclass\", .str c!\"\"), (c!\"device\", .str c!\"\"), (c!\"essid\", .str c!\"\"), (c!\"ethtool\", .str c!\"\"), (c!\"gateway\", .str c!\"\"), (c!\"hostname\", .str c!\"\"), (c!\"ip\", .str c!\"i\"), (c!\"mtu\", .str c!\"\"), (c!\"nameserver\", .str c!\"\"), (c!\"netmask\", .str c!\"\"), (c!\"nodns\", .bool false), (c!\"onboot\", .bool true), (c!\"wepkey\", .str c!\"\")]", "bsets": "[]", "rows": {"--netmask=QX": "[(c!\"netmask\", .str c!\"QX\")]", "--gateway=QX": "[(c!\"gateway\", .str c!\"QX\")]"}}, "491": {"cmd": "network", "cls": "FC3_Network.cls FC3_NetworkData.cls", "vs": [1000], "base": "--device=t", "bi": 3, "lines": ["--teamslaves=a", "--bondslaves=a,b", "--vlanid=5"], "ok": true, "kind": "L", "d": "[(c!\"lineno\", .int 7), (c!\"bootProto\", .str c!\"dhcp\"), (c!\"dhcpclass\", .str c!\"\"), (c!\"device\", .str c!\"t\"), (c!\"essid\", .str c!\"\"), (c!\"ethtool\", .str c!\"\"), (c!\"gateway\", .str c!\"\"), (c!\"hostname\", .str c!\"\"), (c!\"ip\", .str c!\"\"), (c!\"mtu\", .str c!\"\"), (c!\"nameserver\", .str c!\"\"), (c!\"netmask\", .str c!\"\"), (c!\"nodns\", .bool false), (c!\"onboot\", .bool true), (c!\"wepkey\", .str c!\"\")]", "bsets": "[]", "rows": {"--teamslaves=a": "REFUSED", "--bondslaves=a,b": "REFUSED", "--vlanid=5": "REFUSED"}}, "492": {"cmd": "nfs", "cls": "FC3_NFS.cls", "vs": [1000, 2000, 3000, 900, 1100], "base": "--server=s --dir=d", "bi": 0, "lines": ["--server=QX", "--dir=QX", "--opts=QX"], "ok": true, "kind": "P", "d": "[(c!\"server\", .str c!\"s\"), (c!\"dir\", .str c!\"d\")]", "bsets": "[(c!\"server\", .str c!\"s\"), (c!\"dir\", .str c!\"d\")]", "rows": {"--server=QX": "[(c!\"server\", .str c!\"QX\")]", "--dir=QX": "[(c!\"dir\", .str c!\"QX\")]", "--opts=QX": "REFUSED"}}, "493": {"cmd": "part", "cls": "FC3_Partition.cls FC3_PartData.cls", "vs": [1000, 900, 1100], "base": "/x --size=1", "bi": 0, "lines": ["--active", "--asprimary", "--start=42", "--end=42", "--fstype=QX", "--type=QX", "--grow", "--maxsize=42", "--noformat", "--onbiosdisk=QX", "--ondisk=QX", "--ondrive=QX", "--onpart=QX", "--usepart=QX", "--recommended", "--size=42", "--fsoptions=QX", "--label=QX", "--bytes-per-inode=QX", "--fsprofile=QX", "--encrypted", "--passphrase=QX", "--start=QX", "--end=QX", "--escrowcert=QX", "--backuppassphrase", "--resize", "--hibernation", "--cipher=QX", "--mkfsoptions=QX", "--luks-version=QX", "--pbkdf=QX", "--pbkdf-memory=42", "--pbkdf-time=42", "--pbkdf-iterations=42", "--bytes-per-inode=42"], "ok": true, "kind": "L", "d": "[(c!\"lineno\", .int 7), (c!\"active\", .bool false), (c!\"primOnly\", .bool false), (c!\"end\", .int 0), (c!\"fstype\", .str c!\"\"), (c!\"grow\", .bool false), (c!\"maxSizeMB\", .int 0), (c!\"format\", .bool true), (c!\"onbiosdisk\", .str c!\"\"), (c!\"disk\", .str c!\"\"), (c!\"onPart\", .str c!\"\"), (c!\"recommended\", .bool false), (c!\"size\", .int 1), (c!\"start\", .int 0), (c!\"mountpoint\", .str c!\"/x\"), (c!\"mntpoint\", .list [c!\"/x\"])]", "bsets": "[]", "rows": {"--active": "[(c!\"active\", .bool true)]", "--asprimary": "[(c!\"primOnly\", .bool true)]", "--start=42": "[(c!\"start\", .int 42)]", "--end=42": "[(c!\"end\", .int 42)]", "--fstype=QX": "[(c!\"fstype\", .str c!\"QX\")]", "--type=QX": "[(c!\"fstype\", .str c!\"QX\")]", "--grow": "[(c!\"grow\", .bool true)]", "--maxsize=42": "[(c!\"maxSizeMB\", .int 42)]", "--noformat": "[(c!\"format\", .bool false)]", "--onbiosdisk=QX": "[(c!\"onbiosdisk\", .str c!\"QX\")]", "--ondisk=QX": "[(c!\"disk\", .str c!\"QX\")]", "--ondrive=QX": "[(c!\"disk\", .str c!\"QX\")]", "--onpart=QX": "[(c!\"onPart\", .str c!\"QX\")]", "--usepart=QX": "[(c!\"onPart\", .str c!\"QX\")]", "--recommended": "[(c!\"recommended\", .bool true)]", "--size=42": "[(c!\"size\", .int 42)]", "--fsoptions=QX": "REFUSED", "--label=QX": "REFUSED", "--bytes-per-inode=QX": "REFUSED", "--fsprofile=QX": "REFUSED", "--encrypted": "REFUSED", "--passphrase=QX": "REFUSED", "--start=QX": "REFUSED", "--end=QX": "REFUSED", "--escrowcert=QX": "REFUSED", "--backuppassphrase": "REFUSED", "--resize": "REFUSED", "--hibernation": "REFUSED", "--cipher=QX": "REFUSED", "--mkfsoptions=QX": "REFUSED", "--luks-version=QX": "REFUSED", "--pbkdf=QX": "REFUSED", "--pbkdf-memory=42": "REFUSED", "--pbkdf-time=42": "REFUSED", "--pbkdf-iterations=42": "REFUSED", "--bytes-per-inode=42": "REFUSED"}}, "494": {"cmd": "part", "cls": "FC3_Partition.cls FC3_PartData.cls", "vs": [1000, 900, 1100], "base": "/x --onpart=sda1 --size=1", "bi": 1, "lines": ["--resize", "--noformat"], "ok": true, "kind": "L", "d": "[(c!\"lineno\", .int 7), (c!\"active\", .bool false), (c!\"primOnly\", .bool false), (c!\"end\", .int 0), (c!\"fstype\", .str c!\"\"), (c!\"grow\", .bool false), (c!\"maxSizeMB\", .int 0), (c!\"format\", .bool true), (c!\"onbiosdisk\", .str c!\"\"), (c!\"disk\", .str c!\"\"), (c!\"onPart\", .str c!\"sda1\"), (c!\"recommended\", .bool false), (c!\"size\", .int 1), (c!\"start\", .int 0), (c!\"mountpoint\", .str c!\"/x\"), (c!\"mntpoint\", .list [c!\"/x\"])]", "bsets": "[]", "rows": {"--resize": "REFUSED", "--noformat": "[(c!\"format\", .bool false)]"}}, "495": {"cmd": "partition", "cls": "FC3_Partition.cls FC3_PartData.cls", "vs": [1000, 900, 1100], "base": "/x --size=1", "bi": 0, "lines": ["--active", "--asprimary", "--start=42", "--end=42", "--fstype=QX", "--type=QX", "--grow", "--maxsize=42", "--noformat", "--onbiosdisk=QX", "--ondisk=QX", "--ondrive=QX", "--onpart=QX", "--usepart=QX", "--recommended", "--size=42", "--fsoptions=QX", "--label=QX", "--bytes-per-inode=QX", "--fsprofile=QX", "--encrypted", "--passphrase=QX", "--start=QX", "--end=QX", "--escrowcert=QX", "--backuppassphrase", "--resize", "--hibernation", "--cipher=QX", "--mkfsoptions=QX", "--luks-version=QX", "--pbkdf=QX", "--pbkdf-memory=42", "--pbkdf-time=42", "--pbkdf-iterations=42", "--bytes-per-inode=42"], "ok": true, "kind": "L", "d": "[(c!\"lineno\", .int 7), (c!\"active\", .bool false), (c!\"primOnly\", .bool false), (c!\"end\", .int 0), (c!\"fstype\", .str c!\"\"), (c!\"grow\", .bool false), (c!\"maxSizeMB\", .int 0), (c!\"format\", .bool true), (c!\"onbiosdisk\", .str c!\"\"), (c!\"disk\", .str c!\"\"), (c!\"onPart\", .str c!\"\"), (c!\"recommended\", .bool false), (c!\"size\", .int 1), (c!\"start\", .int 0), (c!\"mountpoint\", .str c!\"/x\"), (c!\"mntpoint\", .list [c!\"/x\"])]", "bsets": "[]", "rows": {"--active": "[(c!\"active\", .bool true)]", "--asprimary": "[(c!\"primOnly\", .bool true)]", "--start=42": "[(c!\"start\", .int 42)]", "--end=42": "[(c!\"end\", .int 42)]", "--fstype=QX": "[(c!\"fstype\", .str c!\"QX\")]", "--type=QX": "[(c!\"fstype\", .str c!\"QX\")]", "--grow": "[(c!\"grow\", .bool true)]", "--maxsize=42": "[(c!\"maxSizeMB\", .int 42)]", "--noformat": "[(c!\"format\", .bool false)]", "--onbiosdisk=QX": "[(c!\"onbiosdisk\", .str c!\"QX\")]", "--ondisk=QX": "[(c!\"disk\", .str c!\"QX\")]", "--ondrive=QX": "[(c!\"disk\", .str c!\"QX\")]", "--onpart=QX": "[(c!\"onPart\", .str c!\"QX\")]", "--usepart=QX": "[(c!\"onPart\", .str c!\"QX\")]", "--recommended": "[(c!\"recommended\", .bool true)]", "--size=42": "[(c!\"size\", .int 42)]", "--fsoptions=QX": "REFUSED", "--label=QX": "REFUSED", "--bytes-per-inode=QX": "REFUSED", "--fsprofile=QX": "REFUSED", "--encrypted": "REFUSED", "--passphrase=QX": "REFUSED", "--start=QX": "REFUSED", "--end=QX": "REFUSED", "--escrowcert=QX": "REFUSED", "--backuppassphrase": "REFUSED", "--resize": "REFUSED", "--hibernation": "REFUSED", "--cipher=QX": "REFUSED", "--mkfsoptions=QX": "REFUSED", "--luks-version=QX": "REFUSED", "--pbkdf=QX": "REFUSED", "--pbkdf-memory=42": "REFUSED", "--pbkdf-time=42": "REFUSED", "--pbkdf-iterations=42": "REFUSED", "--bytes-per-inode=42": "REFUSED"}}, "496": {"cmd": "partition", "cls": "FC3_Partition.cls FC3_PartData.cls", "vs": [1000, 900, 1100], "base": "/x --onpart=sda1 --size=1", "bi": 1, "lines": ["--resize", "--noformat"], "ok": true, "kind": "L", "d": "[(c!\"lineno\", .int 7), (c!\"active\", .bool false), (c!\"primOnly\", .bool false), (c!\"end\", .int 0), (c!\"fstype\", .str c!\"\"), (c!\"grow\", .bool false), (c!\"maxSizeMB\", .int 0), (c!\"format\", .bool true), (c!\"onbiosdisk\", .str c!\"\"), (c!\"disk\", .str c!\"\"), (c!\"onPart\", .str c!\"sda1\"), (c!\"recommended\", .bool false), (c!\"size\", .int 1), (c!\"start\", .int 0), (c!\"mountpoint\", .str c!\"/x\"), (c!\"mntpoint\", .list [c!\"/x\"])]", "bsets": "[]", "rows": {"--resize": "REFUSED", "--noformat": "[(c!\"format\", .bool false)]"}}, "497": {"cmd": "poweroff", "cls": "FC3_Reboot.cls", "vs": [1000, 2000, 3000, 900, 1100], "base": "", "bi": 0, "lines": ["--eject", "--kexec"], "ok": true, "kind": "P", "d": "[(c!\"action\", .int 2)]", "bsets": "[(c!\"action\", .int 2)]", "rows": {"--eject": "[]", "--kexec": "[]"}}, "498": {"cmd": "raid", "cls": "FC3_Raid.cls FC3_RaidData.cls", "vs": [1000, 900, 1100], "base": "/x --device=1 --level=RAID1 raid.1 raid.2", "bi": 0, "lines": ["--device=QX", "--fstype=QX", "--level=RAID0", "--level=0", "--level=RAID1", "--level=1", "--level=RAID5", "--level=5", "--level=RAID6", "--level=6", "--level=RAID10", "--level=10", "--noformat", "--spares=42", "--useexisting", "--fsoptions=QX", "--bytes-per-inode=QX", "--fsprofile=QX", "--encrypted", "--passphrase=QX", "--escrowcert=QX", "--backuppassphrase", "--level=RAID4", "--level=4", "--label=QX", "--cipher=QX", "--mkfsoptions=QX", "--chunksize=42", "--luks-version=QX", "--pbkdf=QX", "--pbkdf-memory=42", "--pbkdf-time=42", "--pbkdf-iterations=42", "--bytes-per-inode=42"], "ok": true, "kind": "L", "d": "[(c!\"lineno\", .int 7), (c!\"device\", .int 1), (c!\"fstype\", .str c!\"\"), (c!\"level\", .str c!\"RAID1\"), (c!\"format\", .bool true), (c!\"spares\", .int 0), (c!\"preexist\", .bool false), (c!\"mountpoint\", .str c!\"/x\"), (c!\"members\", .list [c!\"raid.1\", c!\"raid.2\"]), (c!\"mntpoint\", .list [c!\"/x\"]), (c!\"partitions\", .list [c!\"raid.1\", c!\"raid.2\"])]", "bsets": "[]", "rows": {"--device=QX": "REFUSED", "--fstype=QX": "[(c!\"fstype\", .str c!\"QX\")]", "--level=RAID0": "[(c!\"level\", .str c!\"RAID0\")]", "--level=0": "[(c!\"level\", .str c!\"RAID0\")]", "--level=RAID1": "[]", "--level=1": "[]", "--level=RAID5": "[(c!\"level\", .str c!\"RAID5\")]", "--level=5": "[(c!\"level\", .str c!\"RAID5\")]", "--level=RAID6": "[(c!\"level\", .str c!\"RAID6\")]", "--level=6": "[(c!\"level\", .str c!\"RAID6\")]", "--level=RAID10": "REFUSED", "--level=10": "REFUSED", "--noformat": "REFUSED", "--spares=42": "[(c!\"spares\", .int 42)]", "--useexisting": "REFUSED", "--fsoptions=QX": "REFUSED", "--bytes-per-inode=QX": "REFUSED", "--fsprofile=QX": "REFUSED", "--encrypted": "REFUSED", "--passphrase=QX": "REFUSED", "--escrowcert=QX": "REFUSED", "--backuppassphrase": "REFUSED", "--level=RAID4": "REFUSED", "--level=4": "REFUSED", "--label=QX": "REFUSED", "--cipher=QX": "REFUSED", "--mkfsoptions=QX": "REFUSED", "--chunksize=42": "REFUSED", "--luks-version=QX": "REFUSED", "--pbkdf=QX": "REFUSED", "--pbkdf-memory=42": "REFUSED", "--pbkdf-time=42": "REFUSED", "--pbkdf-iterations=42": "REFUSED", "--bytes-per-inode=42": "REFUSED"}}, "499": {"cmd": "raid", "cls": "FC3_Raid.cls FC3_RaidData.cls", "vs": [1000, 900, 1100], "base": "/x --device=1 --noformat", "bi": 1, "lines": ["--fstype=ext4", "--label=QX"], "ok": true, "kind": "L", "d": "[(c!\"lineno\", .int 7), (c!\"device\", .int 1), (c!\"fstype\", .str c!\"\"), (c!\"level\", .str c!\"\"), (c!\"format\", .bool false), (c!\"spares\", .int 0), (c!\"preexist\", .bool true), (c!\"mountpoint\", .str c!\"/x\"), (c!\"members\", .list []), (c!\"mntpoint\", .list [c!\"/x\"]), (c!\"partitions\", .list [])]", "bsets": "[]", "rows": {"--fstype=ext4": "[(c!\"fstype\", .str c!\"ext4\")]", "--label=QX": "REFUSED"}}, "500": {"cmd": "raid", "cls": "FC3_Raid.cls FC3_RaidData.cls", "vs": [1000, 900, 1100], "base": "/x --device=1 --useexisting", "bi": 2, "lines": ["--fstype=ext4", "--label=QX"], "ok": true, "kind": "L", "d": "[(c!\"lineno\", .int 7), (c!\"device\", .int 1), (c!\"fstype\", .str c!\"\"), (c!\"level\", .str c!\"\"), (c!\"format\", .bool true), (c!\"spares\", .int 0), (c!\"preexist\", .bool true), (c!\"mountpoint\", .str c!\"/x\"), (c!\"members\", .list []), (c!\"mntpoint\", .list [c!\"/x\"]), (c!\"partitions\", .list [])]", "bsets": "[]", "rows": {"--fstype=ext4": "[(c!\"fstype\", .str c!\"ext4\")]", "--label=QX": "REFUSED"}}, "501": {"cmd": "raid", "cls": "FC3_Raid.cls FC3_RaidData.cls", "vs": [1000, 900, 1100], "base": "/x --device=1 --level=RAID1 raid.1 raid.2 raid.3", "bi": 3, "lines": ["--device=md7", "--device=data", "--level=0", "--level=RAID5", "--level=raid6", "--level=10", "--level=linear", "--spares=1", "--spares=2"], "ok": true, "kind": "L", "d": "[(c!\"lineno\", .int 7), (c!\"device\", .int 1), (c!\"fstype\", .str c!\"\"), (c!\"level\", .str c!\"RAID1\"), (c!\"format\", .bool true), (c!\"spares\", .int 0), (c!\"preexist\", .bool false), (c!\"mountpoint\", .str c!\"/x\"), (c!\"members\", .list [c!\"raid.1\", c!\"raid.2\", c!\"raid.3\"]), (c!\"mntpoint\", .list [c!\"/x\"]), (c!\"partitions\", .list [c!\"raid.1\", c!\"raid.2\", c!\"raid.3\"])]", "bsets": "[]", "rows": {"--device=md7": "[(c!\"device\", .int 7)]", "--device=data": "REFUSED", "--level=0": "[(c!\"level\", .str c!\"RAID0\")]", "--level=RAID5": "[(c!\"level\", .str c!\"RAID5\")]", "--level=raid6": "[(c!\"level\", .str c!\"RAID6\")]", "--level=10": "REFUSED", "--level=linear": "REFUSED", "--spares=1": "[(c!\"spares\", .int 1)]", "--spares=2": "[(c!\"spares\", .int 2)]"}}, "502": {"cmd": "reboot", "cls": "FC3_Reboot.cls", "vs": [1000, 2000, 3000, 900, 1100], "base": "", "bi": 0, "lines": ["--eject", "--kexec"], "ok": true, "kind": "P", "d": "[(c!\"action\", .int 1)]", "bsets": "[(c!\"action\", .int 1)]", "rows": {"--eject": "[]", "--kexec": "[]"}}, "503": {"cmd": "shutdown", "cls": "FC3_Reboot.cls", "vs": [1000, 2000, 3000, 900, 1100], "base": "", "bi": 0, "lines": ["--eject", "--kexec"], "ok": true, "kind": "P", "d": "[(c!\"action\", .int 2)]", "bsets": "[(c!\"action\", .int 2)]", "rows": {"--eject": "[]", "--kexec": "[]"}}, "504": {"cmd": "timezone", "cls": "FC3_Timezone.cls", "vs": [1000, 2000, 3000, 900, 1100], "base": "T", "bi": 0, "lines": ["--utc", "--isUtc", "--nontp", "--ntpservers=QX"], "ok": true, "kind": "P", "d": "[(c!\"isUtc\", .bool false), (c!\"timezone\", .str c!\"T\")]", "bsets": "[(c!\"timezone\", .str c!\"T\")]", "rows": {"--utc": "[(c!\"isUtc\", .bool true)]", "--isUtc": "REFUSED", "--nontp": "REFUSED", "--ntpservers=QX": "REFUSED"}}, "505": {"cmd": "timezone", "cls": "FC3_Timezone.cls", "vs": [1000, 2000, 3000, 900, 1100], "base": "--utc T", "bi": 1, "lines": ["--ntpservers=QX", "--nontp"], "ok": true, "kind": "P", "d": "[(c!\"isUtc\", .bool true), (c!\"timezone\", .str c!\"T\")]", "bsets": "[(c!\"isUtc\", .bool true), (c!\"timezone\", .str c!\"T\")]", "rows": {"--ntpservers=QX": "REFUSED", "--nontp": "REFUSED"}}, "506": {"cmd": "vnc", "cls": "FC3_Vnc.cls", "vs": [1000, 2000, 3000, 900, 1100], "base": "", "bi": 0, "lines": ["--password=QX", "--host=QX", "--port=QX", "--connect=QX"], "ok": true, "kind": "P", "d": "[(c!\"enabled\", .bool true), (c!\"password\", .str c!\"\"), (c!\"connect\", .str c!\"\")]", "bsets": "[(c!\"enabled\", .bool true)]", "rows": {"--password=QX": "[(c!\"password\", .str c!\"QX\")]", "--host=QX": "REFUSED", "--port=QX": "REFUSED", "--connect=QX": "[(c!\"connect\", .str c!\"QX\")]"}}, "507": {"cmd": "xconfig", "cls": "FC3_XConfig.cls", "vs": [1000, 2000, 3000, 900, 1100], "base": "", "bi": 0, "lines": ["--defaultdesktop=QX", "--startxonboot", "--driver=QX", "--depth=QX", "--resolution=QX", "--videoram=QX", "--depth=42", "--card=QX", "--hsync=QX", "--monitor=QX", "--noprobe=QX", "--vsync=QX", "--noprobe", "--server=QX"], "ok": true, "kind": "P", "d": "[(c!\"card\", .str c!\"\"), (c!\"defaultdesktop\", .str c!\"\"), (c!\"depth\", .int 0), (c!\"hsync\", .str c!\"\"), (c!\"monitor\", .str c!\"\"), (c!\"noProbe\", .bool false), (c!\"resolution\", .str c!\"\"), (c!\"server\", .str c!\"\"), (c!\"startX\", .bool false), (c!\"videoRam\", .str c!\"\"), (c!\"vsync\", .str c!\"\")]", "bsets": "[]", "rows": {"--defaultdesktop=QX": "[(c!\"defaultdesktop\", .str c!\"QX\")]", "--startxonboot": "[(c!\"startX\", .bool true)]", "--driver=QX": "REFUSED", "--depth=QX": "REFUSED", "--resolution=QX": "[(c!\"resolution\", .str c!\"QX\")]", "--videoram=QX": "[(c!\"videoRam\", .str c!\"QX\")]", "--depth=42": "[(c!\"depth\", .int 42)]", "--card=QX": "[(c!\"card\", .str c!\"QX\")]", "--hsync=QX": "[(c!\"hsync\", .str c!\"QX\")]", "--monitor=QX": "[(c!\"monitor\", .str c!\"QX\")]", "--noprobe=QX": "REFUSED", "--vsync=QX": "[(c!\"vsync\", .str c!\"QX\")]", "--noprobe": "[(c!\"noProbe\", .bool true)]", "--server=QX": "[(c!\"server\", .str c!\"QX\")]"}}, "508": {"cmd": "network", "cls": "FC4_Network.cls FC4_NetworkData.cls", "vs": [2000, 3000], "base": "", "bi": 0, "lines": ["--bootproto=dhcp", "--bootproto=bootp", "--bootproto=static", "--bootproto=query", "--dhcpclass=QX", "--device=QX", "--essid=QX", "--ethtool=QX", "--gateway=QX", "--hostname=QX", "--ip=QX", "--mtu=QX", "--nameserver=QX", "--netmask=QX", "--nodns", "--onboot=yes", "--onboot=off", "--wepkey=QX", "--notksdevice", "--noipv4", "--noipv6", "--ipv6=QX", "--bootproto=ibft", "--activate", "--nodefroute", "--wpakey=QX", "--bondslaves=QX", "--bondopts=QX", "--vlanid=QX", "--ipv6gateway=QX", "--teamslaves=QX", "--teamconfig=QX", "--interfacename=QX", "--bridgeslaves=QX", "--bridgeopts=QX", "--no-activate", "--bindto=mac"], "ok": true, "kind": "L", "d": "[(c!\"lineno\", .int 7), (c!\"bootProto\", .str c!\"dhcp\"), (c!\"dhcpclass\", .str c!\"\"), (c!\"device\", .str c!\"\"), (c!\"essid\", .str c!\"\"), (c!\"ethtool\", .str c!\"\"), (c!\"gateway\", .str c!\"\"), (c!\"hostname\", .str c!\"\"), (c!\"ip\", .str c!\"\"), (c!\"mtu\", .str c!\"\"), (c!\"nameserver\", .str c!\"\"), (c!\"netmask\", .str c!\"\"), (c!\"nodns\", .bool false), (c!\"onboot\", .bool true), (c!\"wepkey\", .str c!\"\"), (c!\"notksdevice\", .bool false)]", "bsets": "[]", "rows": {"--bootproto=dhcp": "[]", "--bootproto=bootp": "[(c!\"bootProto\", .str c!\"bootp\")]", "--bootproto=static": "[(c!\"bootProto\", .str c!\"static\")]", "--bootproto=query": "REFUSED", "--dhcpclass=QX": "[(c!\"dhcpclass\", .str c!\"QX\")]", "--device=QX": "[(c!\"device\", .str c!\"QX\")]", "--essid=QX": "[(c!\"essid\", .str c!\"QX\")]", "--ethtool=QX": "[(c!\"ethtool\", .str c!\"QX\")]", "--gateway=QX": "[(c!\"gateway\", .str c!\"QX\")]", "--hostname=QX": "[(c!\"hostname\", .str c!\"QX\")]", "--ip=QX": "[(c!\"ip\", .str c!\"QX\")]", "--mtu=QX": "[(c!\"mtu\", .str c!\"QX\")]", "--nameserver=QX": "[(c!\"nameserver\", .str c!\"QX\")]", "--netmask=QX": "[(c!\"netmask\", .str c!\"QX\")]", "--nodns": "[(c!\"nodns\", .bool true)]", "--onboot=yes": "[]", "--onboot=off": "[(c!\"onboot\", .bool false)]", "--wepkey=QX": "[(c!\"wepkey\", .str c!\"QX\")]", "--notksdevice": "[(c!\"notksdevice\", .bool true)]", "--noipv4": "REFUSED", "--noipv6": "REFUSED", "--ipv6=QX": "REFUSED", "--bootproto=ibft": "REFUSED", "--activate": "REFUSED", "--nodefroute": "REFUSED", "--wpakey=QX": "REFUSED", "--bondslaves=QX": "REFUSED", "--bondopts=QX": "REFUSED", "--vlanid=QX": "REFUSED", "--ipv6gateway=QX": "REFUSED", "--teamslaves=QX": "REFUSED", "--teamconfig=QX": "REFUSED", "--interfacename=QX": "REFUSED", "--bridgeslaves=QX": "REFUSED", "--bridgeopts=QX": "REFUSED", "--no-activate": "REFUSED", "--bindto=mac": "REFUSED"}}, "509": {"cmd": "network", "cls": "FC4_Network.cls FC4_NetworkData.cls", "vs": [2000, 3000], "base": "--device=b --bridgeslaves=e", "bi": 1, "lines": ["--bridgeopts=stp=6", "--bridgeopts=stp", "--bridgeslaves=a,b"], "ok": false}, "510": {"cmd": "network", "cls": "FC4_Network.cls FC4_NetworkData.cls", "vs": [2000, 3000], "base": "--bootproto=static --ip=i", "bi": 2, "lines": ["--netmask=QX", "--gateway=QX"], "ok": true, "kind": "L", "d": "[(c!\"lineno\", .int 7), (c!\"bootProto\", .str c!\"static\"), (c!\"dhcpclass\", .str c!\"\"), (c!\"device\", .str c!\"\"), (c!\"essid\", .str c!\"\"), (c!\"ethtool\", .str c!\"\"), (c!\"gateway\", .str c!\"\"), (c!\"hostname\", .str c!\"\"), (c!\"ip\", .str c!\"i\"), (c!\"mtu\", .str c!\"\"), (c!\"nameserver\", .str c!\"\"), (c!\"netmask\", .str c!\"\"), (c!\"nodns\", .bool false), (c!\"onboot\", .bool true), (c!\"wepkey\", .str c!\"\"), (c!\"notksdevice\", .bool false)]", "bsets": "[]", "rows": {"--netmask=QX": "[(c!\"netmask\", .str c!\"QX\")]", "--gateway=QX": "[(c!\"gateway\", .str c!\"QX\")]"}}, "511": {"cmd": "network", "cls": "FC4_Network.cls FC4_NetworkData.cls", "vs": [2000, 3000], "base": "--device=t", "bi": 3, "lines": ["--teamslaves=a", "--bondslaves=a,b", "--vlanid=5"], "ok": true, "kind": "L", "d": "[(c!\"lineno\", .int 7), (c!\"bootProto\", .str c!\"dhcp\"), (c!\"dhcpclass\", .str c!\"\"), (c!\"device\", .str c!\"t\"), (c!\"essid\", .str c!\"\"), (c!\"ethtool\", .str c!\"\"), (c!\"gateway\", .str c!\"\"), (c!\"hostname\", .str c!\"\"), (c!\"ip\", .str c!\"\"), (c!\"mtu\", .str c!\"\"), (c!\"nameserver\", .str c!\"\"), (c!\"netmask\", .str c!\"\"), (c!\"nodns\", .bool false), (c!\"onboot\", .bool true), (c!\"wepkey\", .str c!\"\"), (c!\"notksdevice\", .bool false)]", "bsets": "[]", "rows": {"--teamslaves=a": "REFUSED", "--bondslaves=a,b": "REFUSED", "--vlanid=5": "REFUSED"}}, "512": {"cmd": "raid", "cls": "FC4_Raid.cls FC4_RaidData.cls", "vs": [2000], "base": "/x --device=1 --level=RAID1 raid.1 raid.2", "bi": 0, "lines": ["--device=QX", "--fstype=QX", "--level=RAID0", "--level=0", "--level=RAID1", "--level=1", "--level=RAID5", "--level=5", "--level=RAID6", "--level=6", "--level=RAID10", "--level=10", "--noformat", "--spares=42", "--useexisting", "--fsoptions=QX", "--bytes-per-inode=QX", "--fsprofile=QX", "--encrypted", "--passphrase=QX", "--escrowcert=QX", "--backuppassphrase", "--level=RAID4", "--level=4", "--label=QX", "--cipher=QX", "--mkfsoptions=QX", "--chunksize=42", "--luks-version=QX", "--pbkdf=QX", "--pbkdf-memory=42", "--pbkdf-time=42", "--pbkdf-iterations=42", "--bytes-per-inode=42"], "ok": true, "kind": "L", "d": "[(c!\"lineno\", .int 7), (c!\"device\", .int 1), (c!\"fstype\", .str c!\"\"), (c!\"level\", .str c!\"RAID1\"), (c!\"format\", .bool true), (c!\"spares\", .int 0), (c!\"preexist\", .bool false), (c!\"mountpoint\", .str c!\"/x\"), (c!\"members\", .list [c!\"raid.1\", c!\"raid.2\"]), (c!\"fsopts\", .str c!\"\"), (c!\"mntpoint\", .list [c!\"/x\"]), (c!\"partitions\", .list [c!\"raid.1\", c!\"raid.2\"])]", "bsets": "[]", "rows": {"--device=QX": "REFUSED", "--fstype=QX": "[(c!\"fstype\", .str c!\"QX\")]", "--level=RAID0": "[(c!\"level\", .str c!\"RAID0\")]", "--level=0": "[(c!\"level\", .str c!\"RAID0\")]", "--level=RAID1": "[]", "--level=1": "[]", "--level=RAID5": "[(c!\"level\", .str c!\"RAID5\")]", "--level=5": "[(c!\"level\", .str c!\"RAID5\")]", "--level=RAID6": "[(c!\"level\", .str c!\"RAID6\")]", "--level=6": "[(c!\"level\", .str c!\"RAID6\")]", "--level=RAID10": "REFUSED", "--level=10": "REFUSED", "--noformat": "REFUSED", "--spares=42": "[(c!\"spares\", .int 42)]", "--useexisting": "REFUSED", "--fsoptions=QX": "[(c!\"fsopts\", .str c!\"QX\")]", "--bytes-per-inode=QX": "REFUSED", "--fsprofile=QX": "REFUSED", "--encrypted": "REFUSED", "--passphrase=QX": "REFUSED", "--escrowcert=QX": "REFUSED", "--backuppassphrase": "REFUSED", "--level=RAID4": "REFUSED", "--level=4": "REFUSED", "--label=QX": "REFUSED", "--cipher=QX": "REFUSED", "--mkfsoptions=QX": "REFUSED", "--chunksize=42": "REFUSED", "--luks-version=QX": "REFUSED", "--pbkdf=QX": "REFUSED", "--pbkdf-memory=42": "REFUSED", "--pbkdf-time=42": "REFUSED", "--pbkdf-iterations=42": "REFUSED", "--bytes-per-inode=42": "REFUSED"}}, "513": {"cmd": "raid", "cls": "FC4_Raid.cls FC4_RaidData.cls", "vs": [2000], "base": "/x --device=1 --noformat", "bi": 1, "lines": ["--fstype=ext4", "--label=QX"], "ok": true, "kind": "L", "d": "[(c!\"lineno\", .int 7), (c!\"device\", .int 1), (c!\"fstype\", .str c!\"\"), (c!\"level\", .str c!\"\"), (c!\"format\", .bool false), (c!\"spares\", .int 0), (c!\"preexist\", .bool true), (c!\"mountpoint\", .str c!\"/x\"), (c!\"members\", .list []), (c!\"fsopts\", .str c!\"\"), (c!\"mntpoint\", .list [c!\"/x\"]), (c!\"partitions\", .list [])]", "bsets": "[]", "rows": {"--fstype=ext4": "[(c!\"fstype\", .str c!\"ext4\")]", "--label=QX": "REFUSED"}}, "514": {"cmd": "raid", "cls": "FC4_Raid.cls FC4_RaidData.cls", "vs": [2000], "base": "/x --device=1 --useexisting", "bi": 2, "lines": ["--fstype=ext4", "--label=QX"], "ok": true, "kind": "L", "d": "[(c!\"lineno\", .int 7), (c!\"device\", .int 1), (c!\"fstype\", .str c!\"\"), (c!\"level\", .str c!\"\"), (c!\"format\", .bool true), (c!\"spares\", .int 0), (c!\"preexist\", .bool true), (c!\"mountpoint\", .str c!\"/x\"), (c!\"members\", .list []), (c!\"fsopts\", .str c!\"\"), (c!\"mntpoint\", .list [c!\"/x\"]), (c!\"partitions\", .list [])]", "bsets": "[]", "rows": {"--fstype=ext4": "[(c!\"fstype\", .str c!\"ext4\")]", "--label=QX": "REFUSED"}}, "515": {"cmd": "raid", "cls": "FC4_Raid.cls FC4_RaidData.cls", "vs": [2000], "base": "/x --device=1 --level=RAID1 raid.1 raid.2 raid.3", "bi": 3, "lines": ["--device=md7", "--device=data", "--level=0", "--level=RAID5", "--level=raid6", "--level=10", "--level=linear", "--spares=1", "--spares=2"], "ok": true, "kind": "L", "d": "[(c!\"lineno\", .int 7), (c!\"device\", .int 1), (c!\"fstype\", .str c!\"\"), (c!\"level\", .str c!\"RAID1\"), (c!\"format\", .bool true), (c!\"spares\", .int 0), (c!\"preexist\", .bool false), (c!\"mountpoint\", .str c!\"/x\"), (c!\"members\", .list [c!\"raid.1\", c!\"raid.2\", c!\"raid.3\"]), (c!\"fsopts\", .str c!\"\"), (c!\"mntpoint\", .list [c!\"/x\"]), (c!\"partitions\", .list [c!\"raid.1\", c!\"raid.2\", c!\"raid.3\"])]", "bsets": "[]", "rows": {"--device=md7": "[(c!\"device\", .int 7)]", "--device=data": "REFUSED", "--level=0": "[(c!\"level\", .str c!\"RAID0\")]", "--level=RAID5": "[(c!\"level\", .str c!\"RAID5\")]", "--level=raid6": "[(c!\"level\", .str c!\"RAID6\")]", "--level=10": "REFUSED", "--level=linear": "REFUSED", "--spares=1": "[(c!\"spares\", .int 1)]", "--spares=2": "[(c!\"spares\", .int 2)]"}}, "516": {"cmd": "raid", "cls": "FC5_Raid.cls FC5_RaidData.cls", "vs": [3000, 4000], "base": "/x --device=1 --level=RAID1 raid.1 raid.2", "bi": 0, "lines": ["--device=QX", "--fstype=QX", "--level=RAID0", "--level=0", "--level=RAID1", "--level=1", "--level=RAID5", "--level=5", "--level=RAID6", "--level=6", "--level=RAID10", "--level=10", "--noformat", "--spares=42", "--useexisting", "--fsoptions=QX", "--bytes-per-inode=QX", "--fsprofile=QX", "--encrypted", "--passphrase=QX", "--escrowcert=QX", "--backuppassphrase", "--level=RAID4", "--level=4", "--label=QX", "--cipher=QX", "--mkfsoptions=QX", "--chunksize=42", "--luks-version=QX", "--pbkdf=QX", "--pbkdf-memory=42", "--pbkdf-time=42", "--pbkdf-iterations=42", "--bytes-per-inode=42"], "ok": true, "kind": "L", "d": "[(c!\"lineno\", .int 7), (c!\"device\", .int 1), (c!\"fstype\", .str c!\"\"), (c!\"level\", .str c!\"RAID1\"), (c!\"format\", .bool true), (c!\"spares\", .int 0), (c!\"preexist\", .bool false), (c!\"mountpoint\", .str c!\"/x\"), (c!\"members\", .list [c!\"raid.1\", c!\"raid.2\"]), (c!\"fsopts\", .str c!\"\"), (c!\"bytesPerInode\", .int 4096), (c!\"mntpoint\", .list [c!\"/x\"]), (c!\"partitions\", .list [c!\"raid.1\", c!\"raid.2\"])]", "bsets": "[]", "rows": {"--device=QX": "REFUSED", "--fstype=QX": "[(c!\"fstype\", .str c!\"QX\")]", "--level=RAID0": "[(c!\"level\", .str c!\"RAID0\")]", "--level=0": "[(c!\"level\", .str c!\"RAID0\")]", "--level=RAID1": "[]", "--level=1": "[]", "--level=RAID5": "[(c!\"level\", .str c!\"RAID5\")]", "--level=5": "[(c!\"level\", .str c!\"RAID5\")]", "--level=RAID6": "[(c!\"level\", .str c!\"RAID6\")]", "--level=6": "[(c!\"level\", .str c!\"RAID6\")]", "--level=RAID10": "REFUSED", "--level=10": "REFUSED", "--noformat": "REFUSED", "--spares=42": "[(c!\"spares\", .int 42)]", "--useexisting": "REFUSED", "--fsoptions=QX": "[(c!\"fsopts\", .str c!\"QX\")]", "--bytes-per-inode=QX": "REFUSED", "--fsprofile=QX": "REFUSED", "--encrypted": "REFUSED", "--passphrase=QX": "REFUSED", "--escrowcert=QX": "REFUSED", "--backuppassphrase": "REFUSED", "--level=RAID4": "REFUSED", "--level=4": "REFUSED", "--label=QX": "REFUSED", "--cipher=QX": "REFUSED", "--mkfsoptions=QX": "REFUSED", "--chunksize=42": "REFUSED", "--luks-version=QX": "REFUSED", "--pbkdf=QX": "REFUSED", "--pbkdf-memory=42": "REFUSED", "--pbkdf-time=42": "REFUSED", "--pbkdf-iterations=42": "REFUSED", "--bytes-per-inode=42": "[(c!\"bytesPerInode\", .int 42)]"}}, "517": {"cmd": "raid", "cls": "FC5_Raid.cls FC5_RaidData.cls", "vs": [3000, 4000], "base": "/x --device=1 --noformat", "bi": 1, "lines": ["--fstype=ext4", "--label=QX"], "ok": true, "kind": "L", "d": "[(c!\"lineno\", .int 7), (c!\"device\", .int 1), (c!\"fstype\", .str c!\"\"), (c!\"level\", .str c!\"\"), (c!\"format\", .bool false), (c!\"spares\", .int 0), (c!\"preexist\", .bool true), (c!\"mountpoint\", .str c!\"/x\"), (c!\"members\", .list []), (c!\"fsopts\", .str c!\"\"), (c!\"bytesPerInode\", .int 4096), (c!\"mntpoint\", .list [c!\"/x\"]), (c!\"partitions\", .list [])]", "bsets": "[]", "rows": {"--fstype=ext4": "[(c!\"fstype\", .str c!\"ext4\")]", "--label=QX": "REFUSED"}}, "518": {"cmd": "raid", "cls": "FC5_Raid.cls FC5_RaidData.cls", "vs": [3000, 4000], "base": "/x --device=1 --useexisting", "bi": 2, "lines": ["--fstype=ext4", "--label=QX"], "ok": true, "kind": "L", "d": "[(c!\"lineno\", .int 7), (c!\"device\", .int 1), (c!\"fstype\", .str c!\"\"), (c!\"level\", .str c!\"\"), (c!\"format\", .bool true), (c!\"spares\", .int 0), (c!\"preexist\", .bool true), (c!\"mountpoint\", .str c!\"/x\"), (c!\"members\", .list []), (c!\"fsopts\", .str c!\"\"), (c!\"bytesPerInode\", .int 4096), (c!\"mntpoint\", .list [c!\"/x\"]), (c!\"partitions\", .list [])]", "bsets": "[]", "rows": {"--fstype=ext4": "[(c!\"fstype\", .str c!\"ext4\")]", "--label=QX": "REFUSED"}}, "519": {"cmd": "raid", "cls": "FC5_Raid.cls FC5_RaidData.cls", "vs": [3000, 4000], "base": "/x --device=1 --level=RAID1 raid.1 raid.2 raid.3", "bi": 3, "lines": ["--device=md7", "--device=data", "--level=0", "--level=RAID5", "--level=raid6", "--level=10", "--level=linear", "--spares=1", "--spares=2"], "ok": true, "kind": "L", "d": "[(c!\"lineno\", .int 7), (c!\"device\", .int 1), (c!\"fstype\", .str c!\"\"), (c!\"level\", .str c!\"RAID1\"), (c!\"format\", .bool true), (c!\"spares\", .int 0), (c!\"preexist\", .bool false), (c!\"mountpoint\", .str c!\"/x\"), (c!\"members\", .list [c!\"raid.1\", c!\"raid.2\", c!\"raid.3\"]), (c!\"fsopts\", .str c!\"\"), (c!\"bytesPerInode\", .int 4096), (c!\"mntpoint\", .list [c!\"/x\"]), (c!\"partitions\", .list [c!\"raid.1\", c!\"raid.2\", c!\"raid.3\"])]", "bsets": "[]", "rows": {"--device=md7": "[(c!\"device\", .int 7)]", "--device=data": "REFUSED", "--level=0": "[(c!\"level\", .str c!\"RAID0\")]", "--level=RAID5": "[(c!\"level\", .str c!\"RAID5\")]", "--level=raid6": "[(c!\"level\", .str c!\"RAID6\")]", "--level=10": "REFUSED", "--level=linear": "REFUSED", "--spares=1": "[(c!\"spares\", .int 1)]", "--spares=2": "[(c!\"spares\", .int 2)]"}}, "520": {"cmd": "mouse", "cls": "RHEL3_Mouse.cls", "vs": [900], "base": "generic", "bi": 0, "lines": ["--device=QX", "--emulthree"], "ok": true, "kind": "P", "d": "[(c!\"device\", .str c!\"\"), (c!\"emulthree\", .bool false), (c!\"mouse\", .str c!\"generic\")]", "bsets": "[(c!\"mouse\", .str c!\"generic\")]", "rows": {"--device=QX": "[(c!\"device\", .str c!\"QX\")]", "--emulthree": "[(c!\"emulthree\", .bool true)]"}}, "521": {"cmd": "network", "cls": "FC3_Network.cls RHEL4_NetworkData.cls", "vs": [900], "base": "", "bi": 0, "lines": ["--bootproto=dhcp", "--bootproto=bootp", "--bootproto=static", "--bootproto=query", "--dhcpclass=QX", "--device=QX", "--essid=QX", "--ethtool=QX", "--gateway=QX", "--hostname=QX", "--ip=QX", "--mtu=QX", "--nameserver=QX", "--netmask=QX", "--nodns", "--onboot=yes", "--onboot=off", "--wepkey=QX", "--notksdevice", "--noipv4", "--noipv6", "--ipv6=QX", "--bootproto=ibft", "--activate", "--nodefroute", "--wpakey=QX", "--bondslaves=QX", "--bondopts=QX", "--vlanid=QX", "--ipv6gateway=QX", "--teamslaves=QX", "--teamconfig=QX", "--interfacename=QX", "--bridgeslaves=QX", "--bridgeopts=QX", "--no-activate", "--bindto=mac"], "ok": true, "kind": "L", "d": "[(c!\"lineno\", .int 7), (c!\"bootProto\", .str c!\"dhcp\"), (c!\"dhcpclass\", .str c!\"\"), (c!\"device\", .str c!\"\"), (c!\"essid\", .str c!\"\"), (c!\"ethtool\", .str c!\"\"), (c!\"gateway\", .str c!\"\"), (c!\"hostname\", .str c!\"\"), (c!\"ip\", .str c!\"\"), (c!\"mtu\", .str c!\"\"), (c!\"nameserver\", .str c!\"\"), (c!\"netmask\", .str c!\"\"), (c!\"nodns\", .bool false), (c!\"onboot\", .bool true), (c!\"wepkey\", .str c!\"\"), (c!\"notksdevice\", .bool false)]", "bsets": "[]", "rows": {"--bootproto=dhcp": "[]", "--bootproto=bootp": "[(c!\"bootProto\", .str c!\"bootp\")]", "--bootproto=static": "[(c!\"bootProto\", .str c!\"static\")]", "--bootproto=query": "REFUSED", "--dhcpclass=QX": "[(c!\"dhcpclass\", .str c!\"QX\")]", "--device=QX": "[(c!\"device\", .str c!\"QX\")]", "--essid=QX": "[(c!\"essid\", .str c!\"QX\")]", "--ethtool=QX": "[(c!\"ethtool\", .str c!\"QX\")]", "--gateway=QX": "[(c!\"gateway\", .str c!\"QX\")]", "--hostname=QX": "[(c!\"hostname\", .str c!\"QX\")]", "--ip=QX": "[(c!\"ip\", .str c!\"QX\")]", "--mtu=QX": "[(c!\"mtu\", .str c!\"QX\")]", "--nameserver=QX": "[(c!\"nameserver\", .str c!\"QX\")]", "--netmask=QX": "[(c!\"netmask\", .str c!\"QX\")]", "--nodns": "[(c!\"nodns\", .bool true)]", "--onboot=yes": "[]", "--onboot=off": "[(c!\"onboot\", .bool false)]", "--wepkey=QX": "[(c!\"wepkey\", .str c!\"QX\")]", "--notksdevice": "REFUSED", "--noipv4": "REFUSED", "--noipv6": "REFUSED", "--ipv6=QX": "REFUSED", "--bootproto=ibft": "REFUSED", "--activate": "REFUSED", "--nodefroute": "REFUSED", "--wpakey=QX": "REFUSED", "--bondslaves=QX": "REFUSED", "--bondopts=QX": "REFUSED", "--vlanid=QX": "REFUSED", "--ipv6gateway=QX": "REFUSED", "--teamslaves=QX": "REFUSED", "--teamconfig=QX": "REFUSED", "--interfacename=QX": "REFUSED", "--bridgeslaves=QX": "REFUSED", "--bridgeopts=QX": "REFUSED", "--no-activate": "REFUSED", "--bindto=mac": "REFUSED"}}, "522": {"cmd": "network", "cls": "FC3_Network.cls RHEL4_NetworkData.cls", "vs": [900], "base": "--device=b --bridgeslaves=e", "bi": 1, "lines": ["--bridgeopts=stp=6", "--bridgeopts=stp", "--bridgeslaves=a,b"], "ok": false}, "523": {"cmd": "network", "cls": "FC3_Network.cls RHEL4_NetworkData.cls", "vs": [900], "base": "--bootproto=static --ip=i", "bi": 2, "lines": ["--netmask=QX", "--gateway=QX"], "ok": true, "kind": "L", "d": "[(c!\"lineno\", .int 7), (c!\"bootProto\", .str c!\"static\"), (c!\"dhcpclass\", .str c!\"\"), (c!\"device\", .str c!\"\"), (c!\"essid\", .str c!\"\"), (c!\"ethtool\", .str c!\"\"), (c!\"gateway\", .str c!\"\"), (c!\"hostname\", .str c!\"\"), (c!\"ip\", .str c!\"i\"), (c!\"mtu\", .str c!\"\"), (c!\"nameserver\", .str c!\"\"), (c!\"netmask\", .str c!\"\"), (c!\"nodns\", .bool false), (c!\"onboot\", .bool true), (c!\"wepkey\", .str c!\"\"), (c!\"notksdevice\", .bool false)]", "bsets": "[]", "rows": {"--netmask=QX": "[(c!\"netmask\", .str c!\"QX\")]", "--gateway=QX": "[(c!\"gateway\", .str c!\"QX\")]"}}, "524": {"cmd": "network", "cls": "FC3_Network.cls RHEL4_NetworkData.cls", "vs": [900], "base": "--device=t", "bi": 3, "lines": ["--teamslaves=a", "--bondslaves=a,b", "--vlanid=5"], "ok": true, "kind": "L", "d": "[(c!\"lineno\", .int 7), (c!\"bootProto\", .str c!\"dhcp\"), (c!\"dhcpclass\", .str c!\"\"), (c!\"device\", .str c!\"t\"), (c!\"essid\", .str c!\"\"), (c!\"ethtool\", .str c!\"\"), (c!\"gateway\", .str c!\"\"), (c!\"hostname\", .str c!\"\"), (c!\"ip\", .str c!\"\"), (c!\"mtu\", .str c!\"\"), (c!\"nameserver\", .str c!\"\"), (c!\"netmask\", .str c!\"\"), (c!\"nodns\", .bool false), (c!\"onboot\", .bool true), (c!\"wepkey\", .str c!\"\"), (c!\"notksdevice\", .bool false)]", "bsets": "[]", "rows": {"--teamslaves=a": "REFUSED", "--bondslaves=a,b": "REFUSED", "--vlanid=5": "REFUSED"}}, "525": {"cmd": "network", "cls": "RHEL4_Network.cls RHEL4_NetworkData.cls", "vs": [1100], "base": "", "bi": 0, "lines": ["--bootproto=dhcp", "--bootproto=bootp", "--bootproto=static", "--bootproto=query", "--dhcpclass=QX", "--device=QX", "--essid=QX", "--ethtool=QX", "--gateway=QX", "--hostname=QX", "--ip=QX", "--mtu=QX", "--nameserver=QX", "--netmask=QX", "--nodns", "--onboot=yes", "--onboot=off", "--wepkey=QX", "--notksdevice", "--noipv4", "--noipv6", "--ipv6=QX", "--bootproto=ibft", "--activate", "--nodefroute", "--wpakey=QX", "--bondslaves=QX", "--bondopts=QX", "--vlanid=QX", "--ipv6gateway=QX", "--teamslaves=QX", "--teamconfig=QX", "--interfacename=QX", "--bridgeslaves=QX", "--bridgeopts=QX", "--no-activate", "--bindto=mac"], "ok": true, "kind": "L", "d": "[(c!\"lineno\", .int 7), (c!\"bootProto\", .str c!\"dhcp\"), (c!\"dhcpclass\", .str c!\"\"), (c!\"device\", .str c!\"\"), (c!\"essid\", .str c!\"\"), (c!\"ethtool\", .str c!\"\"), (c!\"gateway\", .str c!\"\"), (c!\"hostname\", .str c!\"\"), (c!\"ip\", .str c!\"\"), (c!\"mtu\", .str c!\"\"), (c!\"nameserver\", .str c!\"\"), (c!\"netmask\", .str c!\"\"), (c!\"nodns\", .bool false), (c!\"onboot\", .bool true), (c!\"wepkey\", .str c!\"\"), (c!\"notksdevice\", .bool false)]", "bsets": "[]", "rows": {"--bootproto=dhcp": "[]", "--bootproto=bootp": "[(c!\"bootProto\", .str c!\"bootp\")]", "--bootproto=static": "[(c!\"bootProto\", .str c!\"static\")]", "--bootproto=query": "REFUSED", "--dhcpclass=QX": "[(c!\"dhcpclass\", .str c!\"QX\")]", "--device=QX": "[(c!\"device\", .str c!\"QX\")]", "--essid=QX": "[(c!\"essid\", .str c!\"QX\")]", "--ethtool=QX": "[(c!\"ethtool\", .str c!\"QX\")]", "--gateway=QX": "[(c!\"gateway\", .str c!\"QX\")]", "--hostname=QX": "[(c!\"hostname\", .str c!\"QX\")]", "--ip=QX": "[(c!\"ip\", .str c!\"QX\")]", "--mtu=QX": "[(c!\"mtu\", .str c!\"QX\")]", "--nameserver=QX": "[(c!\"nameserver\", .str c!\"QX\")]", "--netmask=QX": "[(c!\"netmask\", .str c!\"QX\")]", "--nodns": "[(c!\"nodns\", .bool true)]", "--onboot=yes": "[]", "--onboot=off": "[(c!\"onboot\", .bool false)]", "--wepkey=QX": "[(c!\"wepkey\", .str c!\"QX\")]", "--notksdevice": "[(c!\"notksdevice\", .bool true)]", "--noipv4": "REFUSED", "--noipv6": "REFUSED", "--ipv6=QX": "REFUSED", "--bootproto=ibft": "REFUSED", "--activate": "REFUSED", "--nodefroute": "REFUSED", "--wpakey=QX": "REFUSED", "--bondslaves=QX": "REFUSED", "--bondopts=QX": "REFUSED", "--vlanid=QX": "REFUSED", "--ipv6gateway=QX": "REFUSED", "--teamslaves=QX": "REFUSED", "--teamconfig=QX": "REFUSED", "--interfacename=QX": "REFUSED", "--bridgeslaves=QX": "REFUSED", "--bridgeopts=QX": "REFUSED", "--no-activate": "REFUSED", "--bindto=mac": "REFUSED"}}, "526": {"cmd": "network", "cls": "RHEL4_Network.cls RHEL4_NetworkData.cls", "vs": [1100], "base": "--device=b --bridgeslaves=e", "bi": 1, "lines": ["--bridgeopts=stp=6", "--bridgeopts=stp", "--bridgeslaves=a,b"], "ok": false}, "527": {"cmd": "network", "cls": "RHEL4_Network.cls RHEL4_NetworkData.cls", "vs": [1100], "base": "--bootproto=static --ip=i", "bi": 2, "lines": ["--netmask=QX", "--gateway=QX"], "ok": true, "kind": "L", "d": "[(c!\"lineno\", .int 7), (c!\"bootProto\", .str c!\"static\"), (c!\"dhcpclass\", .str c!\"\"), (c!\"device\", .str c!\"\"), (c!\"essid\", .str c!\"\"), (c!\"ethtool\", .str c!\"\"), (c!\"gateway\", .str c!\"\"), (c!\"hostname\", .str c!\"\"), (c!\"ip\", .str c!\"i\"), (c!\"mtu\", .str c!\"\"), (c!\"nameserver\", .str c!\"\"), (c!\"netmask\", .str c!\"\"), (c!\"nodns\", .bool false), (c!\"onboot\", .bool true), (c!\"wepkey\", .str c!\"\"), (c!\"notksdevice\", .bool false)]", "bsets": "[]", "rows": {"--netmask=QX": "[(c!\"netmask\", .str c!\"QX\")]", "--gateway=QX": "[(c!\"gateway\", .str c!\"QX\")]"}}, "528": {"cmd": "network", "cls": "RHEL4_Network.cls RHEL4_NetworkData.cls", "vs": [1100], "base": "--device=t", "bi": 3, "lines": ["--teamslaves=a", "--bondslaves=a,b", "--vlanid=5"], "ok": true, "kind": "L", "d": "[(c!\"lineno\", .int 7), (c!\"bootProto\", .str c!\"dhcp\"), (c!\"dhcpclass\", .str c!\"\"), (c!\"device\", .str c!\"t\"), (c!\"essid\", .str c!\"\"), (c!\"ethtool\", .str c!\"\"), (c!\"gateway\", .str c!\"\"), (c!\"hostname\", .str c!\"\"), (c!\"ip\", .str c!\"\"), (c!\"mtu\", .str c!\"\"), (c!\"nameserver\", .str c!\"\"), (c!\"netmask\", .str c!\"\"), (c!\"nodns\", .bool false), (c!\"onboot\", .bool true), (c!\"wepkey\", .str c!\"\"), (c!\"notksdevice\", .bool false)]", "bsets": "[]", "rows": {"--teamslaves=a": "REFUSED", "--bondslaves=a,b": "REFUSED", "--vlanid=5": "REFUSED"}}, "529": {"cmd": "bootloader", "cls": "RHEL5_Bootloader.cls", "vs": [4100], "base": "", "bi": 0, "lines": ["--append=QX", "--location=mbr", "--location=partition", "--location=none", "--location=boot", "--lba32", "--password=QX", "--md5pass=QX", "--upgrade", "--driveorder=QX", "--timeout=42", "--default=QX", "--iscrypted", "--boot-drive=QX", "--leavebootorder", "--extlinux", "--disabled", "--nombr", "--linear", "--nolinear", "--useLilo", "--hvargs=QX"], "ok": true, "kind": "P", "d": "[(c!\"driveorder\", .list []), (c!\"appendLine\", .str c!\"\"), (c!\"forceLBA\", .bool false), (c!\"location\", .str c!\"mbr\"), (c!\"md5pass\", .str c!\"\"), (c!\"password\", .str c!\"\"), (c!\"upgrade\", .bool false), (c!\"hvArgs\", .str c!\"\")]", "bsets": "[(c!\"location\", .str c!\"mbr\")]", "rows": {"--append=QX": "[(c!\"appendLine\", .str c!\"QX\")]", "--location=mbr": "[]", "--location=partition": "[(c!\"location\", .str c!\"partition\")]", "--location=none": "[(c!\"location\", .str c!\"none\")]", "--location=boot": "[(c!\"location\", .str c!\"boot\")]", "--lba32": "[(c!\"forceLBA\", .bool true)]", "--password=QX": "[(c!\"password\", .str c!\"QX\")]", "--md5pass=QX": "[(c!\"md5pass\", .str c!\"QX\")]", "--upgrade": "[(c!\"upgrade\", .bool true)]", "--driveorder=QX": "[(c!\"driveorder\", .list [c!\"QX\"])]", "--timeout=42": "REFUSED", "--default=QX": "REFUSED", "--iscrypted": "REFUSED", "--boot-drive=QX": "REFUSED", "--leavebootorder": "REFUSED", "--extlinux": "REFUSED", "--disabled": "REFUSED", "--nombr": "REFUSED", "--linear": "REFUSED", "--nolinear": "REFUSED", "--useLilo": "REFUSED", "--hvargs=QX": "[(c!\"hvArgs\", .str c!\"QX\")]"}}, "530": {"cmd": "key", "cls": "RHEL5_Key.cls", "vs": [4100, 11100], "base": "K", "bi": 0, "lines": ["--skip"], "ok": true, "kind": "P", "d": "[(c!\"key\", .str c!\"K\"), (c!\"skip\", .bool false)]", "bsets": "[(c!\"key\", .str c!\"K\")]", "rows": {"--skip": "[(c!\"key\", .int -99), (c!\"skip\", .bool true)]"}}, "531": {"cmd": "key", "cls": "RHEL5_Key.cls", "vs": [4100, 11100], "base": "--skip", "bi": 1, "lines": [], "ok": true, "kind": "P", "d": "[(c!\"key\", .int -99), (c!\"skip\", .bool true)]", "bsets": "[(c!\"key\", .int -99), (c!\"skip\", .bool true)]", "rows": {}}, "532": {"cmd": "logvol", "cls": "RHEL5_LogVol.cls RHEL5_LogVolData.cls", "vs": [4100], "base": "/x --name=n --vgname=g --size=1", "bi": 0, "lines": ["--fstype=QX", "--grow", "--maxsize=42", "--name=QX", "--noformat", "--percent=42", "--recommended", "--size=42", "--useexisting", "--vgname=QX", "--fsoptions=QX", "--bytes-per-inode=QX", "--fsprofile=QX", "--encrypted", "--passphrase=QX", "--escrowcert=QX", "--backuppassphrase", "--label=QX", "--resize", "--hibernation", "--cipher=QX", "--thinpool", "--thin", "--poolname=QX", "--chunksize=42", "--metadatasize=42", "--profile=QX", "--cachesize=42", "--cachemode=QX", "--cachepvs=QX", "--mkfsoptions=QX", "--luks-version=QX", "--pbkdf=QX", "--pbkdf-memory=42", "--pbkdf-time=42", "--pbkdf-iterations=42", "--bytes-per-inode=42"], "ok": true, "kind": "L", "d": "[(c!\"lineno\", .int 7), (c!\"fstype\", .str c!\"\"), (c!\"grow\", .bool false), (c!\"maxSizeMB\", .int 0), (c!\"name\", .str c!\"n\"), (c!\"format\", .bool true), (c!\"percent\", .int 0), (c!\"recommended\", .bool false), (c!\"size\", .int 1), (c!\"preexist\", .bool false), (c!\"vgname\", .str c!\"g\"), (c!\"mountpoint\", .str c!\"/x\"), (c!\"bytesPerInode\", .int 4096), (c!\"fsopts\", .str c!\"\"), (c!\"encrypted\", .bool false), (c!\"passphrase\", .str c!\"\"), (c!\"mntpoint\", .list [c!\"/x\"])]", "bsets": "[]", "rows": {"--fstype=QX": "[(c!\"fstype\", .str c!\"QX\")]", "--grow": "[(c!\"grow\", .bool true)]", "--maxsize=42": "[(c!\"maxSizeMB\", .int 42)]", "--name=QX": "[(c!\"name\", .str c!\"QX\")]", "--noformat": "[(c!\"format\", .bool false), (c!\"preexist\", .bool true)]", "--percent=42": "[(c!\"percent\", .int 42)]", "--recommended": "[(c!\"recommended\", .bool true)]", "--size=42": "[(c!\"size\", .int 42)]", "--useexisting": "[(c!\"preexist\", .bool true)]", "--vgname=QX": "[(c!\"vgname\", .str c!\"QX\")]", "--fsoptions=QX": "[(c!\"fsopts\", .str c!\"QX\")]", "--bytes-per-inode=QX": "REFUSED", "--fsprofile=QX": "REFUSED", "--encrypted": "[(c!\"encrypted\", .bool true)]", "--passphrase=QX": "[(c!\"passphrase\", .str c!\"QX\")]", "--escrowcert=QX": "REFUSED", "--backuppassphrase": "REFUSED", "--label=QX": "REFUSED", "--resize": "REFUSED", "--hibernation": "REFUSED", "--cipher=QX": "REFUSED", "--thinpool": "REFUSED", "--thin": "REFUSED", "--poolname=QX": "REFUSED", "--chunksize=42": "REFUSED", "--metadatasize=42": "REFUSED", "--profile=QX": "REFUSED", "--cachesize=42": "REFUSED", "--cachemode=QX": "REFUSED", "--cachepvs=QX": "REFUSED", "--mkfsoptions=QX": "REFUSED", "--luks-version=QX": "REFUSED", "--pbkdf=QX": "REFUSED", "--pbkdf-memory=42": "REFUSED", "--pbkdf-time=42": "REFUSED", "--pbkdf-iterations=42": "REFUSED", "--bytes-per-inode=42": "[(c!\"bytesPerInode\", .int 42)]"}}, "533": {"cmd": "logvol", "cls": "RHEL5_LogVol.cls RHEL5_LogVolData.cls", "vs": [4100], "base": "/x --name=n --vgname=g --useexisting", "bi": 1, "lines": ["--size=42", "--resize", "--noformat", "--fstype=ext4"], "ok": true, "kind": "L", "d": "[(c!\"lineno\", .int 7), (c!\"fstype\", .str c!\"\"), (c!\"grow\", .bool false), (c!\"maxSizeMB\", .int 0), (c!\"name\", .str c!\"n\"), (c!\"format\", .bool true), (c!\"percent\", .int 0), (c!\"recommended\", .bool false), (c!\"size\", .none), (c!\"preexist\", .bool true), (c!\"vgname\", .str c!\"g\"), (c!\"mountpoint\", .str c!\"/x\"), (c!\"bytesPerInode\", .int 4096), (c!\"fsopts\", .str c!\"\"), (c!\"encrypted\", .bool false), (c!\"passphrase\", .str c!\"\"), (c!\"mntpoint\", .list [c!\"/x\"])]", "bsets": "[]", "rows": {"--size=42": "[(c!\"size\", .int 42)]", "--resize": "REFUSED", "--noformat": "[(c!\"format\", .bool false)]", "--fstype=ext4": "[(c!\"fstype\", .str c!\"ext4\")]"}}, "534": {"cmd": "logvol", "cls": "RHEL5_LogVol.cls RHEL5_LogVolData.cls", "vs": [4100], "base": "/x --name=n --vgname=g", "bi": 2, "lines": ["--percent=42", "--useexisting", "--noformat"], "ok": true, "kind": "L", "d": "[(c!\"lineno\", .int 7), (c!\"fstype\", .str c!\"\"), (c!\"grow\", .bool false), (c!\"maxSizeMB\", .int 0), (c!\"name\", .str c!\"n\"), (c!\"format\", .bool true), (c!\"percent\", .int 0), (c!\"recommended\", .bool false), (c!\"size\", .none), (c!\"preexist\", .bool false), (c!\"vgname\", .str c!\"g\"), (c!\"mountpoint\", .str c!\"/x\"), (c!\"bytesPerInode\", .int 4096), (c!\"fsopts\", .str c!\"\"), (c!\"encrypted\", .bool false), (c!\"passphrase\", .str c!\"\"), (c!\"mntpoint\", .list [c!\"/x\"])]", "bsets": "[]", "rows": {"--percent=42": "[(c!\"percent\", .int 42)]", "--useexisting": "[(c!\"preexist\", .bool true)]", "--noformat": "[(c!\"format\", .bool false), (c!\"preexist\", .bool true)]"}}, "535": {"cmd": "logvol", "cls": "RHEL5_LogVol.cls RHEL5_LogVolData.cls", "vs": [4100], "base": "/x --name=n --vgname=g --size=1 --poolname=p", "bi": 3, "lines": ["--thin", "--thinpool", "--label=QX"], "ok": false}, "536": {"cmd": "logvol", "cls": "RHEL5_LogVol.cls RHEL5_LogVolData.cls", "vs": [4100], "base": "none --name=n --vgname=g --size=1 --thinpool", "bi": 4, "lines": ["--chunksize=42", "--metadatasize=42", "--profile=QX", "--grow"], "ok": false}, "537": {"cmd": "logvol", "cls": "RHEL5_LogVol.cls RHEL5_LogVolData.cls", "vs": [4100], "base": "/x --name=n --vgname=g --size=1 --cachepvs=a --cachesize=5", "bi": 5, "lines": ["--cachemode=writeback", "--cachemode=writethrough"], "ok": false}, "538": {"cmd": "network", "cls": "RHEL5_Network.cls FC6_NetworkData.cls", "vs": [4100], "base": "", "bi": 0, "lines": ["--bootproto=dhcp", "--bootproto=bootp", "--bootproto=static", "--bootproto=query", "--dhcpclass=QX", "--device=QX", "--essid=QX", "--ethtool=QX", "--gateway=QX", "--hostname=QX", "--ip=QX", "--mtu=QX", "--nameserver=QX", "--netmask=QX", "--nodns", "--onboot=yes", "--onboot=off", "--wepkey=QX", "--notksdevice", "--noipv4", "--noipv6", "--ipv6=QX", "--bootproto=ibft", "--activate", "--nodefroute", "--wpakey=QX", "--bondslaves=QX", "--bondopts=QX", "--vlanid=QX", "--ipv6gateway=QX", "--teamslaves=QX", "--teamconfig=QX", "--interfacename=QX", "--bridgeslaves=QX", "--bridgeopts=QX", "--no-activate", "--bindto=mac"], "ok": true, "kind": "L", "d": "[(c!\"lineno\", .int 7), (c!\"bootProto\", .str c!\"dhcp\"), (c!\"dhcpclass\", .str c!\"\"), (c!\"device\", .str c!\"\"), (c!\"essid\", .str c!\"\"), (c!\"ethtool\", .str c!\"\"), (c!\"gateway\", .str c!\"\"), (c!\"hostname\", .str c!\"\"), (c!\"ip\", .str c!\"\"), (c!\"mtu\", .str c!\"\"), (c!\"nameserver\", .str c!\"\"), (c!\"netmask\", .str c!\"\"), (c!\"nodns\", .bool false), (c!\"onboot\", .bool true), (c!\"wepkey\", .str c!\"\"), (c!\"notksdevice\", .bool false), (c!\"noipv4\", .bool false), (c!\"noipv6\", .bool false)]", "bsets": "[]", "rows": {"--bootproto=dhcp": "[]", "--bootproto=bootp": "[(c!\"bootProto\", .str c!\"bootp\")]", "--bootproto=static": "[(c!\"bootProto\", .str c!\"static\")]", "--bootproto=query": "[(c!\"bootProto\", .str c!\"query\")]", "--dhcpclass=QX": "[(c!\"dhcpclass\", .str c!\"QX\")]", "--device=QX": "[(c!\"device\", .str c!\"QX\")]", "--essid=QX": "[(c!\"essid\", .str c!\"QX\")]", "--ethtool=QX": "[(c!\"ethtool\", .str c!\"QX\")]", "--gateway=QX": "[(c!\"gateway\", .str c!\"QX\")]", "--hostname=QX": "[(c!\"hostname\", .str c!\"QX\")]", "--ip=QX": "[(c!\"ip\", .str c!\"QX\")]", "--mtu=QX": "[(c!\"mtu\", .str c!\"QX\")]", "--nameserver=QX": "[(c!\"nameserver\", .str c!\"QX\")]", "--netmask=QX": "[(c!\"netmask\", .str c!\"QX\")]", "--nodns": "[(c!\"nodns\", .bool true)]", "--onboot=yes": "[]", "--onboot=off": "[(c!\"onboot\", .bool false)]", "--wepkey=QX": "[(c!\"wepkey\", .str c!\"QX\")]", "--notksdevice": "[(c!\"notksdevice\", .bool true)]", "--noipv4": "[(c!\"noipv4\", .bool true)]", "--noipv6": "[(c!\"noipv6\", .bool true)]", "--ipv6=QX": "REFUSED", "--bootproto=ibft": "REFUSED", "--activate": "REFUSED", "--nodefroute": "REFUSED", "--wpakey=QX": "REFUSED", "--bondslaves=QX": "REFUSED", "--bondopts=QX": "REFUSED", "--vlanid=QX": "REFUSED", "--ipv6gateway=QX": "REFUSED", "--teamslaves=QX": "REFUSED", "--teamconfig=QX": "REFUSED", "--interfacename=QX": "REFUSED", "--bridgeslaves=QX": "REFUSED", "--bridgeopts=QX": "REFUSED", "--no-activate": "REFUSED", "--bindto=mac": "REFUSED"}}, "539": {"cmd": "network", "cls": "RHEL5_Network.cls FC6_NetworkData.cls", "vs": [4100], "base": "--device=b --bridgeslaves=e", "bi": 1, "lines": ["--bridgeopts=stp=6", "--bridgeopts=stp", "--bridgeslaves=a,b"], "ok": false}, "540": {"cmd": "network", "cls": "RHEL5_Network.cls FC6_NetworkData.cls", "vs": [4100], "base": "--bootproto=static --ip=i", "bi": 2, "lines": ["--netmask=QX", "--gateway=QX"], "ok": true, "kind": "L", "d": "[(c!\"lineno\", .int 7), (c!\"bootProto\", .str c!\"static\"), (c!\"dhcpclass\", .str c!\"\"), (c!\"device\", .str c!\"\"), (c!\"essid\", .str c!\"\"), (c!\"ethtool\", .str c!\"\"), (c!\"gateway\", .str c!\"\"), (c!\"hostname\", .str c!\"\"), (c!\"ip\", .str c!\"i\"), (c!\"mtu\", .str c!\"\"), (c!\"nameserver\", .str c!\"\"), (c!\"netmask\", .str c!\"\"), (c!\"nodns\", .bool false), (c!\"onboot\", .bool true), (c!\"wepkey\", .str c!\"\"), (c!\"notksdevice\", .bool false), (c!\"noipv4\", .bool false), (c!\"noipv6\", .bool false)]", "bsets": "[]", "rows": {"--netmask=QX": "[(c!\"netmask\", .str c!\"QX\")]", "--gateway=QX": "[(c!\"gateway\", .str c!\"QX\")]"}}, "541": {"cmd": "network", "cls": "RHEL5_Network.cls FC6_NetworkData.cls", "vs": [4100], "base": "--device=t", "bi": 3, "lines": ["--teamslaves=a", "--bondslaves=a,b", "--vlanid=5"], "ok": true, "kind": "L", "d": "[(c!\"lineno\", .int 7), (c!\"bootProto\", .str c!\"dhcp\"), (c!\"dhcpclass\", .str c!\"\"), (c!\"device\", .str c!\"t\"), (c!\"essid\", .str c!\"\"), (c!\"ethtool\", .str c!\"\"), (c!\"gateway\", .str c!\"\"), (c!\"hostname\", .str c!\"\"), (c!\"ip\", .str c!\"\"), (c!\"mtu\", .str c!\"\"), (c!\"nameserver\", .str c!\"\"), (c!\"netmask\", .str c!\"\"), (c!\"nodns\", .bool false), (c!\"onboot\", .bool true), (c!\"wepkey\", .str c!\"\"), (c!\"notksdevice\", .bool false), (c!\"noipv4\", .bool false), (c!\"noipv6\", .bool false)]", "bsets": "[]", "rows": {"--teamslaves=a": "REFUSED", "--bondslaves=a,b": "REFUSED", "--vlanid=5": "REFUSED"}}, "542": {"cmd": "part", "cls": "RHEL5_Partition.cls RHEL5_PartData.cls", "vs": [4100], "base": "/x --size=1", "bi": 0, "lines": ["--active", "--asprimary", "--start=42", "--end=42", "--fstype=QX", "--type=QX", "--grow", "--maxsize=42", "--noformat", "--onbiosdisk=QX", "--ondisk=QX", "--ondrive=QX", "--onpart=QX", "--usepart=QX", "--recommended", "--size=42", "--fsoptions=QX", "--label=QX", "--bytes-per-inode=QX", "--fsprofile=QX", "--encrypted", "--passphrase=QX", "--start=QX", "--end=QX", "--escrowcert=QX", "--backuppassphrase", "--resize", "--hibernation", "--cipher=QX", "--mkfsoptions=QX", "--luks-version=QX", "--pbkdf=QX", "--pbkdf-memory=42", "--pbkdf-time=42", "--pbkdf-iterations=42", "--bytes-per-inode=42"], "ok": true, "kind": "L", "d": "[(c!\"lineno\", .int 7), (c!\"active\", .bool false), (c!\"primOnly\", .bool false), (c!\"end\", .int 0), (c!\"fstype\", .str c!\"\"), (c!\"grow\", .bool false), (c!\"maxSizeMB\", .int 0), (c!\"format\", .bool true), (c!\"onbiosdisk\", .str c!\"\"), (c!\"disk\", .str c!\"\"), (c!\"onPart\", .str c!\"\"), (c!\"recommended\", .bool false), (c!\"size\", .int 1), (c!\"start\", .int 0), (c!\"mountpoint\", .str c!\"/x\"), (c!\"bytesPerInode\", .int 4096), (c!\"fsopts\", .str c!\"\"), (c!\"label\", .str c!\"\"), (c!\"encrypted\", .bool false), (c!\"passphrase\", .str c!\"\"), (c!\"mntpoint\", .list [c!\"/x\"])]", "bsets": "[]", "rows": {"--active": "[(c!\"active\", .bool true)]", "--asprimary": "[(c!\"primOnly\", .bool true)]", "--start=42": "[(c!\"start\", .int 42)]", "--end=42": "[(c!\"end\", .int 42)]", "--fstype=QX": "[(c!\"fstype\", .str c!\"QX\")]", "--type=QX": "[(c!\"fstype\", .str c!\"QX\")]", "--grow": "[(c!\"grow\", .bool true)]", "--maxsize=42": "[(c!\"maxSizeMB\", .int 42)]", "--noformat": "[(c!\"format\", .bool false)]", "--onbiosdisk=QX": "[(c!\"onbiosdisk\", .str c!\"QX\")]", "--ondisk=QX": "[(c!\"disk\", .str c!\"QX\")]", "--ondrive=QX": "[(c!\"disk\", .str c!\"QX\")]", "--onpart=QX": "[(c!\"onPart\", .str c!\"QX\")]", "--usepart=QX": "[(c!\"onPart\", .str c!\"QX\")]", "--recommended": "[(c!\"recommended\", .bool true)]", "--size=42": "[(c!\"size\", .int 42)]", "--fsoptions=QX": "[(c!\"fsopts\", .str c!\"QX\")]", "--label=QX": "[(c!\"label\", .str c!\"QX\")]", "--bytes-per-inode=QX": "REFUSED", "--fsprofile=QX": "REFUSED", "--encrypted": "[(c!\"encrypted\", .bool true)]", "--passphrase=QX": "[(c!\"passphrase\", .str c!\"QX\")]", "--start=QX": "REFUSED", "--end=QX": "REFUSED", "--escrowcert=QX": "REFUSED", "--backuppassphrase": "REFUSED", "--resize": "REFUSED", "--hibernation": "REFUSED", "--cipher=QX": "REFUSED", "--mkfsoptions=QX": "REFUSED", "--luks-version=QX": "REFUSED", "--pbkdf=QX": "REFUSED", "--pbkdf-memory=42": "REFUSED", "--pbkdf-time=42": "REFUSED", "--pbkdf-iterations=42": "REFUSED", "--bytes-per-inode=42": "[(c!\"bytesPerInode\", .int 42)]"}}, "543": {"cmd": "part", "cls": "RHEL5_Partition.cls RHEL5_PartData.cls", "vs": [4100], "base": "/x --onpart=sda1 --size=1", "bi": 1, "lines": ["--resize", "--noformat"], "ok": true, "kind": "L", "d": "[(c!\"lineno\", .int 7), (c!\"active\", .bool false), (c!\"primOnly\", .bool false), (c!\"end\", .int 0), (c!\"fstype\", .str c!\"\"), (c!\"grow\", .bool false), (c!\"maxSizeMB\", .int 0), (c!\"format\", .bool true), (c!\"onbiosdisk\", .str c!\"\"), (c!\"disk\", .str c!\"\"), (c!\"onPart\", .str c!\"sda1\"), (c!\"recommended\", .bool false), (c!\"size\", .int 1), (c!\"start\", .int 0), (c!\"mountpoint\", .str c!\"/x\"), (c!\"bytesPerInode\", .int 4096), (c!\"fsopts\", .str c!\"\"), (c!\"label\", .str c!\"\"), (c!\"encrypted\", .bool false), (c!\"passphrase\", .str c!\"\"), (c!\"mntpoint\", .list [c!\"/x\"])]", "bsets": "[]", "rows": {"--resize": "REFUSED", "--noformat": "[(c!\"format\", .bool false)]"}}, "544": {"cmd": "partition", "cls": "RHEL5_Partition.cls RHEL5_PartData.cls", "vs": [4100], "base": "/x --size=1", "bi": 0, "lines": ["--active", "--asprimary", "--start=42", "--end=42", "--fstype=QX", "--type=QX", "--grow", "--maxsize=42", "--noformat", "--onbiosdisk=QX", "--ondisk=QX", "--ondrive=QX", "--onpart=QX", "--usepart=QX", "--recommended", "--size=42", "--fsoptions=QX", "--label=QX", "--bytes-per-inode=QX", "--fsprofile=QX", "--encrypted", "--passphrase=QX", "--start=QX", "--end=QX", "--escrowcert=QX", "--backuppassphrase", "--resize", "--hibernation", "--cipher=QX", "--mkfsoptions=QX", "--luks-version=QX", "--pbkdf=QX", "--pbkdf-memory=42", "--pbkdf-time=42", "--pbkdf-iterations=42", "--bytes-per-inode=42"], "ok": true, "kind": "L", "d": "[(c!\"lineno\", .int 7), (c!\"active\", .bool false), (c!\"primOnly\", .bool false), (c!\"end\", .int 0), (c!\"fstype\", .str c!\"\"), (c!\"grow\", .bool false), (c!\"maxSizeMB\", .int 0), (c!\"format\", .bool true), (c!\"onbiosdisk\", .str c!\"\"), (c!\"disk\", .str c!\"\"), (c!\"onPart\", .str c!\"\"), (c!\"recommended\", .bool false), (c!\"size\", .int 1), (c!\"start\", .int 0), (c!\"mountpoint\", .str c!\"/x\"), (c!\"bytesPerInode\", .int 4096), (c!\"fsopts\", .str c!\"\"), (c!\"label\", .str c!\"\"), (c!\"encrypted\", .bool false), (c!\"passphrase\", .str c!\"\"), (c!\"mntpoint\", .list [c!\"/x\"])]", "bsets": "[]", "rows": {"--active": "[(c!\"active\", .bool true)]", "--asprimary": "[(c!\"primOnly\", .bool true)]", "--start=42": "[(c!\"start\", .int 42)]", "--end=42": "[(c!\"end\", .int 42)]", "--fstype=QX": "[(c!\"fstype\", .str c!\"QX\")]", "--type=QX": "[(c!\"fstype\", .str c!\"QX\")]", "--grow": "[(c!\"grow\", .bool true)]", "--maxsize=42": "[(c!\"maxSizeMB\", .int 42)]", "--noformat": "[(c!\"format\", .bool false)]", "--onbiosdisk=QX": "[(c!\"onbiosdisk\", .str c!\"QX\")]", "--ondisk=QX": "[(c!\"disk\", .str c!\"QX\")]", "--ondrive=QX": "[(c!\"disk\", .str c!\"QX\")]", "--onpart=QX": "[(c!\"onPart\", .str c!\"QX\")]", "--usepart=QX": "[(c!\"onPart\", .str c!\"QX\")]", "--recommended": "[(c!\"recommended\", .bool true)]", "--size=42": "[(c!\"size\", .int 42)]", "--fsoptions=QX": "[(c!\"fsopts\", .str c!\"QX\")]", "--label=QX": "[(c!\"label\", .str c!\"QX\")]", "--bytes-per-inode=QX": "REFUSED", "--fsprofile=QX": "REFUSED", "--encrypted": "[(c!\"encrypted\", .bool true)]", "--passphrase=QX": "[(c!\"passphrase\", .str c!\"QX\")]", "--start=QX": "REFUSED", "--end=QX": "REFUSED", "--escrowcert=QX": "REFUSED", "--backuppassphrase": "REFUSED", "--resize": "REFUSED", "--hibernation": "REFUSED", "--cipher=QX": "REFUSED", "--mkfsoptions=QX": "REFUSED", "--luks-version=QX": "REFUSED", "--pbkdf=QX": "REFUSED", "--pbkdf-memory=42": "REFUSED", "--pbkdf-time=42": "REFUSED", "--pbkdf-iterations=42": "REFUSED", "--bytes-per-inode=42": "[(c!\"bytesPerInode\", .int 42)]"}}, "545": {"cmd": "partition", "cls": "RHEL5_Partition.cls RHEL5_PartData.cls", "vs": [4100], "base": "/x --onpart=sda1 --size=1", "bi": 1, "lines": ["--resize", "--noformat"], "ok": true, "kind": "L", "d": "[(c!\"lineno\", .int 7), (c!\"active\", .bool false), (c!\"primOnly\", .bool false), (c!\"end\", .int 0), (c!\"fstype\", .str c!\"\"), (c!\"grow\", .bool false), (c!\"maxSizeMB\", .int 0), (c!\"format\", .bool true), (c!\"onbiosdisk\", .str c!\"\"), (c!\"disk\", .str c!\"\"), (c!\"onPart\", .str c!\"sda1\"), (c!\"recommended\", .bool false), (c!\"size\", .int 1), (c!\"start\", .int 0), (c!\"mountpoint\", .str c!\"/x\"), (c!\"bytesPerInode\", .int 4096), (c!\"fsopts\", .str c!\"\"), (c!\"label\", .str c!\"\"), (c!\"encrypted\", .bool false), (c!\"passphrase\", .str c!\"\"), (c!\"mntpoint\", .list [c!\"/x\"])]", "bsets": "[]", "rows": {"--resize": "REFUSED", "--noformat": "[(c!\"format\", .bool false)]"}}, "546": {"cmd": "raid", "cls": "RHEL5_Raid.cls RHEL5_RaidData.cls", "vs": [4100], "base": "/x --device=1 --level=RAID1 raid.1 raid.2", "bi": 0, "lines": ["--device=QX", "--fstype=QX", "--level=RAID0", "--level=0", "--level=RAID1", "--level=1", "--level=RAID5", "--level=5", "--level=RAID6", "--level=6", "--level=RAID10", "--level=10", "--noformat", "--spares=42", "--useexisting", "--fsoptions=QX", "--bytes-per-inode=QX", "--fsprofile=QX", "--encrypted", "--passphrase=QX", "--escrowcert=QX", "--backuppassphrase", "--level=RAID4", "--level=4", "--label=QX", "--cipher=QX", "--mkfsoptions=QX", "--chunksize=42", "--luks-version=QX", "--pbkdf=QX", "--pbkdf-memory=42", "--pbkdf-time=42", "--pbkdf-iterations=42", "--bytes-per-inode=42"], "ok": true, "kind": "L", "d": "[(c!\"lineno\", .int 7), (c!\"device\", .int 1), (c!\"fstype\", .str c!\"\"), (c!\"level\", .str c!\"RAID1\"), (c!\"format\", .bool true), (c!\"spares\", .int 0), (c!\"preexist\", .bool false), (c!\"mountpoint\", .str c!\"/x\"), (c!\"members\", .list [c!\"raid.1\", c!\"raid.2\"]), (c!\"fsopts\", .str c!\"\"), (c!\"bytesPerInode\", .int 4096), (c!\"encrypted\", .bool false), (c!\"passphrase\", .str c!\"\"), (c!\"mntpoint\", .list [c!\"/x\"]), (c!\"partitions\", .list [c!\"raid.1\", c!\"raid.2\"])]", "bsets": "[]", "rows": {"--device=QX": "REFUSED", "--fstype=QX": "[(c!\"fstype\", .str c!\"QX\")]", "--level=RAID0": "[(c!\"level\", .str c!\"RAID0\")]", "--level=0": "[(c!\"level\", .str c!\"RAID0\")]", "--level=RAID1": "[]", "--level=1": "[]", "--level=RAID5": "[(c!\"level\", .str c!\"RAID5\")]", "--level=5": "[(c!\"level\", .str c!\"RAID5\")]", "--level=RAID6": "[(c!\"level\", .str c!\"RAID6\")]", "--level=6": "[(c!\"level\", .str c!\"RAID6\")]", "--level=RAID10": "[(c!\"level\", .str c!\"RAID10\")]", "--level=10": "[(c!\"level\", .str c!\"RAID10\")]", "--noformat": "REFUSED", "--spares=42": "[(c!\"spares\", .int 42)]", "--useexisting": "REFUSED", "--fsoptions=QX": "[(c!\"fsopts\", .str c!\"QX\")]", "--bytes-per-inode=QX": "REFUSED", "--fsprofile=QX": "REFUSED", "--encrypted": "[(c!\"encrypted\", .bool true)]", "--passphrase=QX": "[(c!\"passphrase\", .str c!\"QX\")]", "--escrowcert=QX": "REFUSED", "--backuppassphrase": "REFUSED", "--level=RAID4": "REFUSED", "--level=4": "REFUSED", "--label=QX": "REFUSED", "--cipher=QX": "REFUSED", "--mkfsoptions=QX": "REFUSED", "--chunksize=42": "REFUSED", "--luks-version=QX": "REFUSED", "--pbkdf=QX": "REFUSED", "--pbkdf-memory=42": "REFUSED", "--pbkdf-time=42": "REFUSED", "--pbkdf-iterations=42": "REFUSED", "--bytes-per-inode=42": "[(c!\"bytesPerInode\", .int 42)]"}}, "547": {"cmd": "raid", "cls": "RHEL5_Raid.cls RHEL5_RaidData.cls", "vs": [4100], "base": "/x --device=1 --noformat", "bi": 1, "lines": ["--fstype=ext4", "--label=QX"], "ok": true, "kind": "L", "d": "[(c!\"lineno\", .int 7), (c!\"device\", .int 1), (c!\"fstype\", .str c!\"\"), (c!\"level\", .str c!\"\"), (c!\"format\", .bool false), (c!\"spares\", .int 0), (c!\"preexist\", .bool true), (c!\"mountpoint\", .str c!\"/x\"), (c!\"members\", .list []), (c!\"fsopts\", .str c!\"\"), (c!\"bytesPerInode\", .int 4096), (c!\"encrypted\", .bool false), (c!\"passphrase\", .str c!\"\"), (c!\"mntpoint\", .list [c!\"/x\"]), (c!\"partitions\", .list [])]", "bsets": "[]", "rows": {"--fstype=ext4": "[(c!\"fstype\", .str c!\"ext4\")]", "--label=QX": "REFUSED"}}, "548": {"cmd": "raid", "cls": "RHEL5_Raid.cls RHEL5_RaidData.cls", "vs": [4100], "base": "/x --device=1 --useexisting", "bi": 2, "lines": ["--fstype=ext4", "--label=QX"], "ok": true, "kind": "L", "d": "[(c!\"lineno\", .int 7), (c!\"device\", .int 1), (c!\"fstype\", .str c!\"\"), (c!\"level\", .str c!\"\"), (c!\"format\", .bool true), (c!\"spares\", .int 0), (c!\"preexist\", .bool true), (c!\"mountpoint\", .str c!\"/x\"), (c!\"members\", .list []), (c!\"fsopts\", .str c!\"\"), (c!\"bytesPerInode\", .int 4096), (c!\"encrypted\", .bool false), (c!\"passphrase\", .str c!\"\"), (c!\"mntpoint\", .list [c!\"/x\"]), (c!\"partitions\", .list [])]", "bsets": "[]", "rows": {"--fstype=ext4": "[(c!\"fstype\", .str c!\"ext4\")]", "--label=QX": "REFUSED"}}, "549": {"cmd": "raid", "cls": "RHEL5_Raid.cls RHEL5_RaidData.cls", "vs": [4100], "base": "/x --device=1 --level=RAID1 raid.1 raid.2 raid.3", "bi": 3, "lines": ["--device=md7", "--device=data", "--level=0", "--level=RAID5", "--level=raid6", "--level=10", "--level=linear", "--spares=1", "--spares=2"], "ok": true, "kind": "L", "d": "[(c!\"lineno\", .int 7), (c!\"device\", .int 1), (c!\"fstype\", .str c!\"\"), (c!\"level\", .str c!\"RAID1\"), (c!\"format\", .bool true), (c!\"spares\", .int 0), (c!\"preexist\", .bool false), (c!\"mountpoint\", .str c!\"/x\"), (c!\"members\", .list [c!\"raid.1\", c!\"raid.2\", c!\"raid.3\"]), (c!\"fsopts\", .str c!\"\"), (c!\"bytesPerInode\", .int 4096), (c!\"encrypted\", .bool false), (c!\"passphrase\", .str c!\"\"), (c!\"mntpoint\", .list [c!\"/x\"]), (c!\"partitions\", .list [c!\"raid.1\", c!\"raid.2\", c!\"raid.3\"])]", "bsets": "[]", "rows": {"--device=md7": "[(c!\"device\", .int 7)]", "--device=data": "REFUSED", "--level=0": "[(c!\"level\", .str c!\"RAID0\")]", "--level=RAID5": "[(c!\"level\", .str c!\"RAID5\")]", "--level=raid6": "[(c!\"level\", .str c!\"RAID6\")]", "--level=10": "[(c!\"level\", .str c!\"RAID10\")]", "--level=linear": "REFUSED", "--spares=1": "[(c!\"spares\", .int 1)]", "--spares=2": "[(c!\"spares\", .int 2)]"}}, "550": {"cmd": "autopart", "cls": "RHEL6_AutoPart.cls", "vs": [11100], "base": "", "bi": 0, "lines": ["--encrypted", "--passphrase=QX", "--escrowcert=QX", "--backuppassphrase", "--nolvm", "--type=lvm", "--type=btrfs", "--type=plain", "--type=partition", "--cipher=QX", "--type=thinp", "--fstype=QX", "--nohome", "--noboot", "--noswap", "--luks-version=QX", "--pbkdf=QX", "--pbkdf-memory=42", "--pbkdf-time=42", "--pbkdf-iterations=42"], "ok": true, "kind": "P", "d": "[(c!\"autopart\", .bool true), (c!\"encrypted\", .bool false), (c!\"passphrase\", .str c!\"\"), (c!\"escrowcert\", .str c!\"\"), (c!\"backuppassphrase\", .bool false), (c!\"cipher\", .str c!\"\")]", "bsets": "[(c!\"autopart\", .bool true)]", "rows": {"--encrypted": "[(c!\"encrypted\", .bool true)]", "--passphrase=QX": "[(c!\"passphrase\", .str c!\"QX\")]", "--escrowcert=QX": "[(c!\"escrowcert\", .str c!\"QX\")]", "--backuppassphrase": "[(c!\"backuppassphrase\", .bool true)]", "--nolvm": "REFUSED", "--type=lvm": "REFUSED", "--type=btrfs": "REFUSED", "--type=plain": "REFUSED", "--type=partition": "REFUSED", "--cipher=QX": "[(c!\"cipher\", .str c!\"QX\")]", "--type=thinp": "REFUSED", "--fstype=QX": "REFUSED", "--nohome": "REFUSED", "--noboot": "REFUSED", "--noswap": "REFUSED", "--luks-version=QX": "REFUSED", "--pbkdf=QX": "REFUSED", "--pbkdf-memory=42": "REFUSED", "--pbkdf-time=42": "REFUSED", "--pbkdf-iterations=42": "REFUSED"}}, "551": {"cmd": "bootloader", "cls": "RHEL6_Bootloader.cls", "vs": [11100], "base": "", "bi": 0, "lines": ["--append=QX", "--location=mbr", "--location=partition", "--location=none", "--location=boot", "--lba32", "--password=QX", "--md5pass=QX", "--upgrade", "--driveorder=QX", "--timeout=42", "--default=QX", "--iscrypted", "--boot-drive=QX", "--leavebootorder", "--extlinux", "--disabled", "--nombr", "--linear", "--nolinear", "--useLilo", "--hvargs=QX"], "ok": true, "kind": "P", "d": "[(c!\"driveorder\", .list []), (c!\"appendLine\", .str c!\"\"), (c!\"forceLBA\", .bool false), (c!\"location\", .str c!\"mbr\"), (c!\"md5pass\", .str c!\"\"), (c!\"password\", .str c!\"\"), (c!\"upgrade\", .bool false), (c!\"timeout\", .none), (c!\"default\", .str c!\"\"), (c!\"isCrypted\", .bool false)]", "bsets": "[(c!\"location\", .str c!\"mbr\")]", "rows": {"--append=QX": "[(c!\"appendLine\", .str c!\"QX\")]", "--location=mbr": "[]", "--location=partition": "[(c!\"location\", .str c!\"partition\")]", "--location=none": "[(c!\"location\", .str c!\"none\")]", "--location=boot": "[(c!\"location\", .str c!\"boot\")]", "--lba32": "[(c!\"forceLBA\", .bool true)]", "--password=QX": "[(c!\"password\", .str c!\"QX\")]", "--md5pass=QX": "[(c!\"password\", .str c!\"QX\"), (c!\"isCrypted\", .bool true)]", "--upgrade": "[(c!\"upgrade\", .bool true)]", "--driveorder=QX": "[(c!\"driveorder\", .list [c!\"QX\"])]", "--timeout=42": "[(c!\"timeout\", .int 42)]", "--default=QX": "[(c!\"default\", .str c!\"QX\")]", "--iscrypted": "[(c!\"isCrypted\", .bool true)]", "--boot-drive=QX": "REFUSED", "--leavebootorder": "REFUSED", "--extlinux": "REFUSED", "--disabled": "REFUSED", "--nombr": "REFUSED", "--linear": "REFUSED", "--nolinear": "REFUSED", "--useLilo": "REFUSED", "--hvargs=QX": "REFUSED"}}, "552": {"cmd": "ignoredisk", "cls": "RHEL6_IgnoreDisk.cls", "vs": [11100], "base": "--drives=a", "bi": 0, "lines": ["--drives=QX", "--only-use=QX", "--interactive"], "ok": true, "kind": "P", "d": "[(c!\"ignoredisk\", .list [c!\"a\"]), (c!\"onlyuse\", .list []), (c!\"interactive\", .bool false)]", "bsets": "[(c!\"ignoredisk\", .list [c!\"a\"])]", "rows": {"--drives=QX": "[(c!\"ignoredisk\", .list [c!\"QX\"])]", "--only-use=QX": "REFUSED", "--interactive": "REFUSED"}}, "553": {"cmd": "ignoredisk", "cls": "RHEL6_IgnoreDisk.cls", "vs": [11100], "base": "--only-use=a", "bi": 1, "lines": ["--drives=QX", "--only-use=QX"], "ok": true, "kind": "P", "d": "[(c!\"ignoredisk\", .list []), (c!\"onlyuse\", .list [c!\"a\"]), (c!\"interactive\", .bool false)]", "bsets": "[(c!\"onlyuse\", .list [c!\"a\"])]", "rows": {"--drives=QX": "REFUSED", "--only-use=QX": "[(c!\"onlyuse\", .list [c!\"QX\"])]"}}, "554": {"cmd": "ignoredisk", "cls": "RHEL6_IgnoreDisk.cls", "vs": [11100], "base": "--interactive", "bi": 2, "lines": ["--only-use=QX"], "ok": true, "kind": "P", "d": "[(c!\"ignoredisk\", .list []), (c!\"onlyuse\", .list []), (c!\"interactive\", .bool true)]", "bsets": "[(c!\"interactive\", .bool true)]", "rows": {"--only-use=QX": "REFUSED"}}, "555": {"cmd": "iscsi", "cls": "RHEL6_Iscsi.cls RHEL6_IscsiData.cls", "vs": [11100], "base": "--ipaddr=i", "bi": 0, "lines": ["--target=QX", "--ipaddr=QX", "--port=42", "--user=QX", "--password=QX", "--reverse-user=QX", "--reverse-password=QX", "--iface=QX"], "ok": true, "kind": "L", "d": "[(c!\"lineno\", .int 7), (c!\"ipaddr\", .str c!\"i\"), (c!\"port\", .int 3260), (c!\"target\", .str c!\"\"), (c!\"user\", .none), (c!\"password\", .none), (c!\"user_in\", .none), (c!\"password_in\", .none), (c!\"iface\", .none)]", "bsets": "[]", "rows": {"--target=QX": "[(c!\"target\", .str c!\"QX\")]", "--ipaddr=QX": "[(c!\"ipaddr\", .str c!\"QX\")]", "--port=42": "[(c!\"port\", .int 42)]", "--user=QX": "[(c!\"user\", .str c!\"QX\")]", "--password=QX": "[(c!\"password\", .str c!\"QX\")]", "--reverse-user=QX": "[(c!\"user_in\", .str c!\"QX\")]", "--reverse-password=QX": "[(c!\"password_in\", .str c!\"QX\")]", "--iface=QX": "[(c!\"iface\", .str c!\"QX\")]"}}, "556": {"cmd": "logvol", "cls": "RHEL6_LogVol.cls RHEL6_LogVolData.cls", "vs": [11100], "base": "/x --name=n --vgname=g --size=1", "bi": 0, "lines": ["--fstype=QX", "--grow", "--maxsize=42", "--name=QX", "--noformat", "--percent=42", "--recommended", "--size=42", "--useexisting", "--vgname=QX", "--fsoptions=QX", "--bytes-per-inode=QX", "--fsprofile=QX", "--encrypted", "--passphrase=QX", "--escrowcert=QX", "--backuppassphrase", "--label=QX", "--resize", "--hibernation", "--cipher=QX", "--thinpool", "--thin", "--poolname=QX", "--chunksize=42", "--metadatasize=42", "--profile=QX", "--cachesize=42", "--cachemode=QX", "--cachepvs=QX", "--mkfsoptions=QX", "--luks-version=QX", "--pbkdf=QX", "--pbkdf-memory=42", "--pbkdf-time=42", "--pbkdf-iterations=42", "--bytes-per-inode=42"], "ok": true, "kind": "L", "d": "[(c!\"lineno\", .int 7), (c!\"fstype\", .str c!\"\"), (c!\"grow\", .bool false), (c!\"maxSizeMB\", .int 0), (c!\"name\", .str c!\"n\"), (c!\"format\", .bool true), (c!\"percent\", .int 0), (c!\"recommended\", .bool false), (c!\"size\", .int 1), (c!\"preexist\", .bool false), (c!\"vgname\", .str c!\"g\"), (c!\"mountpoint\", .str c!\"/x\"), (c!\"fsopts\", .str c!\"\"), (c!\"fsprofile\", .str c!\"\"), (c!\"encrypted\", .bool false), (c!\"passphrase\", .str c!\"\"), (c!\"escrowcert\", .str c!\"\"), (c!\"backuppassphrase\", .bool false), (c!\"cipher\", .str c!\"\"), (c!\"hibernation\", .bool false), (c!\"thin_pool\", .bool false), (c!\"thin_volume\", .bool false), (c!\"pool_name\", .str c!\"\"), (c!\"chunk_size\", .none), (c!\"metadata_size\", .none), (c!\"profile\", .str c!\"\"), (c!\"mntpoint\", .list [c!\"/x\"])]", "bsets": "[]", "rows": {"--fstype=QX": "[(c!\"fstype\", .str c!\"QX\")]", "--grow": "[(c!\"grow\", .bool true)]", "--maxsize=42": "[(c!\"maxSizeMB\", .int 42)]", "--name=QX": "[(c!\"name\", .str c!\"QX\")]", "--noformat": "[(c!\"format\", .bool false), (c!\"preexist\", .bool true)]", "--percent=42": "[(c!\"percent\", .int 42)]", "--recommended": "[(c!\"recommended\", .bool true)]", "--size=42": "[(c!\"size\", .int 42)]", "--useexisting": "[(c!\"preexist\", .bool true)]", "--vgname=QX": "[(c!\"vgname\", .str c!\"QX\")]", "--fsoptions=QX": "[(c!\"fsopts\", .str c!\"QX\")]", "--bytes-per-inode=QX": "[(c!\"bytes_per_inode\", .str c!\"QX\")]", "--fsprofile=QX": "[(c!\"fsprofile\", .str c!\"QX\")]", "--encrypted": "[(c!\"encrypted\", .bool true)]", "--passphrase=QX": "[(c!\"passphrase\", .str c!\"QX\")]", "--escrowcert=QX": "[(c!\"escrowcert\", .str c!\"QX\")]", "--backuppassphrase": "[(c!\"backuppassphrase\", .bool true)]", "--label=QX": "REFUSED", "--resize": "REFUSED", "--hibernation": "[(c!\"hibernation\", .bool true)]", "--cipher=QX": "[(c!\"cipher\", .str c!\"QX\")]", "--thinpool": "[(c!\"thin_pool\", .bool true)]", "--thin": "REFUSED", "--poolname=QX": "[(c!\"pool_name\", .str c!\"QX\")]", "--chunksize=42": "REFUSED", "--metadatasize=42": "REFUSED", "--profile=QX": "[(c!\"profile\", .str c!\"QX\")]", "--cachesize=42": "REFUSED", "--cachemode=QX": "REFUSED", "--cachepvs=QX": "REFUSED", "--mkfsoptions=QX": "REFUSED", "--luks-version=QX": "REFUSED", "--pbkdf=QX": "REFUSED", "--pbkdf-memory=42": "REFUSED", "--pbkdf-time=42": "REFUSED", "--pbkdf-iterations=42": "REFUSED", "--bytes-per-inode=42": "[(c!\"bytes_per_inode\", .str c!\"42\")]"}}, "557": {"cmd": "logvol", "cls": "RHEL6_LogVol.cls RHEL6_LogVolData.cls", "vs": [11100], "base": "/x --name=n --vgname=g --useexisting", "bi": 1, "lines": ["--size=42", "--resize", "--noformat", "--fstype=ext4"], "ok": true, "kind": "L", "d": "[(c!\"lineno\", .int 7), (c!\"fstype\", .str c!\"\"), (c!\"grow\", .bool false), (c!\"maxSizeMB\", .int 0), (c!\"name\", .str c!\"n\"), (c!\"format\", .bool true), (c!\"percent\", .int 0), (c!\"recommended\", .bool false), (c!\"size\", .none), (c!\"preexist\", .bool true), (c!\"vgname\", .str c!\"g\"), (c!\"mountpoint\", .str c!\"/x\"), (c!\"fsopts\", .str c!\"\"), (c!\"fsprofile\", .str c!\"\"), (c!\"encrypted\", .bool false), (c!\"passphrase\", .str c!\"\"), (c!\"escrowcert\", .str c!\"\"), (c!\"backuppassphrase\", .bool false), (c!\"cipher\", .str c!\"\"), (c!\"hibernation\", .bool false), (c!\"thin_pool\", .bool false), (c!\"thin_volume\", .bool false), (c!\"pool_name\", .str c!\"\"), (c!\"chunk_size\", .none), (c!\"metadata_size\", .none), (c!\"profile\", .str c!\"\"), (c!\"mntpoint\", .list [c!\"/x\"])]", "bsets": "[]", "rows": {"--size=42": "[(c!\"size\", .int 42)]", "--resize": "REFUSED", "--noformat": "[(c!\"format\", .bool false)]", "--fstype=ext4": "[(c!\"fstype\", .str c!\"ext4\")]"}}, "558": {"cmd": "logvol", "cls": "RHEL6_LogVol.cls RHEL6_LogVolData.cls", "vs": [11100], "base": "/x --name=n --vgname=g", "bi": 2, "lines": ["--percent=42", "--useexisting", "--noformat"], "ok": true, "kind": "L", "d": "[(c!\"lineno\", .int 7), (c!\"fstype\", .str c!\"\"), (c!\"grow\", .bool false), (c!\"maxSizeMB\", .int 0), (c!\"name\", .str c!\"n\"), (c!\"format\", .bool true), (c!\"percent\", .int 0), (c!\"recommended\", .bool false), (c!\"size\", .none), (c!\"preexist\", .bool false), (c!\"vgname\", .str c!\"g\"), (c!\"mountpoint\", .str c!\"/x\"), (c!\"fsopts\", .str c!\"\"), (c!\"fsprofile\", .str c!\"\"), (c!\"encrypted\", .bool false), (c!\"passphrase\", .str c!\"\"), (c!\"escrowcert\", .str c!\"\"), (c!\"backuppassphrase\", .bool false), (c!\"cipher\", .str c!\"\"), (c!\"hibernation\", .bool false), (c!\"thin_pool\", .bool false), (c!\"thin_volume\", .bool false), (c!\"pool_name\", .str c!\"\"), (c!\"chunk_size\", .none), (c!\"metadata_size\", .none), (c!\"profile\", .str c!\"\"), (c!\"mntpoint\", .list [c!\"/x\"])]", "bsets": "[]", "rows": {"--percent=42": "[(c!\"percent\", .int 42)]", "--useexisting": "[(c!\"preexist\", .bool true)]", "--noformat": "[(c!\"format\", .bool false), (c!\"preexist\", .bool true)]"}}, "559": {"cmd": "logvol", "cls": "RHEL6_LogVol.cls RHEL6_LogVolData.cls", "vs": [11100], "base": "/x --name=n --vgname=g --size=1 --poolname=p", "bi": 3, "lines": ["--thin", "--thinpool", "--label=QX"], "ok": true, "kind": "L", "d": "[(c!\"lineno\", .int 7), (c!\"fstype\", .str c!\"\"), (c!\"grow\", .bool false), (c!\"maxSizeMB\", .int 0), (c!\"name\", .str c!\"n\"), (c!\"format\", .bool true), (c!\"percent\", .int 0), (c!\"recommended\", .bool false), (c!\"size\", .int 1), (c!\"preexist\", .bool false), (c!\"vgname\", .str c!\"g\"), (c!\"mountpoint\", .str c!\"/x\"), (c!\"fsopts\", .str c!\"\"), (c!\"fsprofile\", .str c!\"\"), (c!\"encrypted\", .bool false), (c!\"passphrase\", .str c!\"\"), (c!\"escrowcert\", .str c!\"\"), (c!\"backuppassphrase\", .bool false), (c!\"cipher\", .str c!\"\"), (c!\"hibernation\", .bool false), (c!\"thin_pool\", .bool false), (c!\"thin_volume\", .bool false), (c!\"pool_name\", .str c!\"p\"), (c!\"chunk_size\", .none), (c!\"metadata_size\", .none), (c!\"profile\", .str c!\"\"), (c!\"mntpoint\", .list [c!\"/x\"])]", "bsets": "[]", "rows": {"--thin": "[(c!\"thin_volume\", .bool true)]", "--thinpool": "[(c!\"thin_pool\", .bool true)]", "--label=QX": "REFUSED"}}, "560": {"cmd": "logvol", "cls": "RHEL6_LogVol.cls RHEL6_LogVolData.cls", "vs": [11100], "base": "none --name=n --vgname=g --size=1 --thinpool", "bi": 4, "lines": ["--chunksize=42", "--metadatasize=42", "--profile=QX", "--grow"], "ok": true, "kind": "L", "d": "[(c!\"lineno\", .int 7), (c!\"fstype\", .str c!\"\"), (c!\"grow\", .bool false), (c!\"maxSizeMB\", .int 0), (c!\"name\", .str c!\"n\"), (c!\"format\", .bool true), (c!\"percent\", .int 0), (c!\"recommended\", .bool false), (c!\"size\", .int 1), (c!\"preexist\", .bool false), (c!\"vgname\", .str c!\"g\"), (c!\"mountpoint\", .str c!\"none\"), (c!\"fsopts\", .str c!\"\"), (c!\"fsprofile\", .str c!\"\"), (c!\"encrypted\", .bool false), (c!\"passphrase\", .str c!\"\"), (c!\"escrowcert\", .str c!\"\"), (c!\"backuppassphrase\", .bool false), (c!\"cipher\", .str c!\"\"), (c!\"hibernation\", .bool false), (c!\"thin_pool\", .bool true), (c!\"thin_volume\", .bool false), (c!\"pool_name\", .str c!\"\"), (c!\"chunk_size\", .none), (c!\"metadata_size\", .none), (c!\"profile\", .str c!\"\"), (c!\"mntpoint\", .list [c!\"none\"])]", "bsets": "[]", "rows": {"--chunksize=42": "[(c!\"chunk_size\", .int 42)]", "--metadatasize=42": "[(c!\"metadata_size\", .int 42)]", "--profile=QX": "[(c!\"profile\", .str c!\"QX\")]", "--grow": "[(c!\"grow\", .bool true)]"}}, "561": {"cmd": "logvol", "cls": "RHEL6_LogVol.cls RHEL6_LogVolData.cls", "vs": [11100], "base": "/x --name=n --vgname=g --size=1 --cachepvs=a --cachesize=5", "bi": 5, "lines": ["--cachemode=writeback", "--cachemode=writethrough"], "ok": false}, "562": {"cmd": "network", "cls": "RHEL6_Network.cls RHEL6_NetworkData.cls", "vs": [11100], "base": "", "bi": 0, "lines": ["--bootproto=dhcp", "--bootproto=bootp", "--bootproto=static", "--bootproto=query", "--dhcpclass=QX", "--device=QX", "--essid=QX", "--ethtool=QX", "--gateway=QX", "--hostname=QX", "--ip=QX", "--mtu=QX", "--nameserver=QX", "--netmask=QX", "--nodns", "--onboot=yes", "--onboot=off", "--wepkey=QX", "--notksdevice", "--noipv4", "--noipv6", "--ipv6=QX", "--bootproto=ibft", "--activate", "--nodefroute", "--wpakey=QX", "--bondslaves=QX", "--bondopts=QX", "--vlanid=QX", "--ipv6gateway=QX", "--teamslaves=QX", "--teamconfig=QX", "--interfacename=QX", "--bridgeslaves=QX", "--bridgeopts=QX", "--no-activate", "--bindto=mac"], "ok": true, "kind": "L", "d": "[(c!\"lineno\", .int 7), (c!\"bootProto\", .str c!\"dhcp\"), (c!\"dhcpclass\", .str c!\"\"), (c!\"device\", .str c!\"\"), (c!\"essid\", .str c!\"\"), (c!\"ethtool\", .str c!\"\"), (c!\"gateway\", .str c!\"\"), (c!\"hostname\", .str c!\"\"), (c!\"ip\", .str c!\"\"), (c!\"mtu\", .str c!\"\"), (c!\"nameserver\", .str c!\"\"), (c!\"netmask\", .str c!\"\"), (c!\"nodns\", .bool false), (c!\"onboot\", .bool true), (c!\"wepkey\", .str c!\"\"), (c!\"notksdevice\", .bool false), (c!\"noipv4\", .bool false), (c!\"noipv6\", .bool false), (c!\"ipv6\", .str c!\"\"), (c!\"activate\", .none), (c!\"nodefroute\", .bool false), (c!\"vlanid\", .str c!\"\"), (c!\"bondslaves\", .str c!\"\"), (c!\"bondopts\", .str c!\"\")]", "bsets": "[]", "rows": {"--bootproto=dhcp": "[]", "--bootproto=bootp": "[(c!\"bootProto\", .str c!\"bootp\")]", "--bootproto=static": "[(c!\"bootProto\", .str c!\"static\")]", "--bootproto=query": "[(c!\"bootProto\", .str c!\"query\")]", "--dhcpclass=QX": "[(c!\"dhcpclass\", .str c!\"QX\")]", "--device=QX": "[(c!\"device\", .str c!\"QX\")]", "--essid=QX": "[(c!\"essid\", .str c!\"QX\")]", "--ethtool=QX": "[(c!\"ethtool\", .str c!\"QX\")]", "--gateway=QX": "[(c!\"gateway\", .str c!\"QX\")]", "--hostname=QX": "[(c!\"hostname\", .str c!\"QX\")]", "--ip=QX": "[(c!\"ip\", .str c!\"QX\")]", "--mtu=QX": "[(c!\"mtu\", .str c!\"QX\")]", "--nameserver=QX": "[(c!\"nameserver\", .str c!\"QX\")]", "--netmask=QX": "[(c!\"netmask\", .str c!\"QX\")]", "--nodns": "[(c!\"nodns\", .bool true)]", "--onboot=yes": "[]", "--onboot=off": "[(c!\"onboot\", .bool false)]", "--wepkey=QX": "[(c!\"wepkey\", .str c!\"QX\")]", "--notksdevice": "[(c!\"notksdevice\", .bool true)]", "--noipv4": "[(c!\"noipv4\", .bool true)]", "--noipv6": "[(c!\"noipv6\", .bool true)]", "--ipv6=QX": "[(c!\"ipv6\", .str c!\"QX\")]", "--bootproto=ibft": "[(c!\"bootProto\", .str c!\"ibft\")]", "--activate": "[(c!\"activate\", .bool true)]", "--nodefroute": "[(c!\"nodefroute\", .bool true)]", "--wpakey=QX": "REFUSED", "--bondslaves=QX": "[(c!\"bondslaves\", .str c!\"QX\")]", "--bondopts=QX": "[(c!\"bondopts\", .str c!\"QX\")]", "--vlanid=QX": "[(c!\"vlanid\", .str c!\"QX\")]", "--ipv6gateway=QX": "REFUSED", "--teamslaves=QX": "REFUSED", "--teamconfig=QX": "REFUSED", "--interfacename=QX": "REFUSED", "--bridgeslaves=QX": "REFUSED", "--bridgeopts=QX": "REFUSED", "--no-activate": "REFUSED", "--bindto=mac": "REFUSED"}}, "563": {"cmd": "network", "cls": "RHEL6_Network.cls RHEL6_NetworkData.cls", "vs": [11100], "base": "--device=b --bridgeslaves=e", "bi": 1, "lines": ["--bridgeopts=stp=6", "--bridgeopts=stp", "--bridgeslaves=a,b"], "ok": false}, "564": {"cmd": "network", "cls": "RHEL6_Network.cls RHEL6_NetworkData.cls", "vs": [11100], "base": "--bootproto=static --ip=i", "bi": 2, "lines": ["--netmask=QX", "--gateway=QX"], "ok": true, "kind": "L", "d": "[(c!\"lineno\", .int 7), (c!\"bootProto\", .str c!\"static\"), (c!\"dhcpclass\", .str c!\"\"), (c!\"device\", .str c!\"\"), (c!\"essid\", .str c!\"\"), (c!\"ethtool\", .str c!\"\"), (c!\"gateway\", .str c!\"\"), (c!\"hostname\", .str c!\"\"), (c!\"ip\", .str c!\"i\"), (c!\"mtu\", .str c!\"\"), (c!\"nameserver\", .str c!\"\"), (c!\"netmask\", .str c!\"\"), (c!\"nodns\", .bool false), (c!\"onboot\", .bool true), (c!\"wepkey\", .str c!\"\"), (c!\"notksdevice\", .bool false), (c!\"noipv4\", .bool false), (c!\"noipv6\", .bool false), (c!\"ipv6\", .str c!\"\"), (c!\"activate\", .none), (c!\"nodefroute\", .bool false), (c!\"vlanid\", .str c!\"\"), (c!\"bondslaves\", .str c!\"\"), (c!\"bondopts\", .str c!\"\")]", "bsets": "[]", "rows": {"--netmask=QX": "[(c!\"netmask\", .str c!\"QX\")]", "--gateway=QX": "[(c!\"gateway\", .str c!\"QX\")]"}}, "565": {"cmd": "network", "cls": "RHEL6_Network.cls RHEL6_NetworkData.cls", "vs": [11100], "base": "--device=t", "bi": 3, "lines": ["--teamslaves=a", "--bondslaves=a,b", "--vlanid=5"], "ok": true, "kind": "L", "d": "[(c!\"lineno\", .int 7), (c!\"bootProto\", .str c!\"dhcp\"), (c!\"dhcpclass\", .str c!\"\"), (c!\"device\", .str c!\"t\"), (c!\"essid\", .str c!\"\"), (c!\"ethtool\", .str c!\"\"), (c!\"gateway\", .str c!\"\"), (c!\"hostname\", .str c!\"\"), (c!\"ip\", .str c!\"\"), (c!\"mtu\", .str c!\"\"), (c!\"nameserver\", .str c!\"\"), (c!\"netmask\", .str c!\"\"), (c!\"nodns\", .bool false), (c!\"onboot\", .bool true), (c!\"wepkey\", .str c!\"\"), (c!\"notksdevice\", .bool false), (c!\"noipv4\", .bool false), (c!\"noipv6\", .bool false), (c!\"ipv6\", .str c!\"\"), (c!\"activate\", .none), (c!\"nodefroute\", .bool false), (c!\"vlanid\", .str c!\"\"), (c!\"bondslaves\", .str c!\"\"), (c!\"bondopts\", .str c!\"\")]", "bsets": "[]", "rows": {"--teamslaves=a": "REFUSED", "--bondslaves=a,b": "[(c!\"bondslaves\", .str c!\"a,b\")]", "--vlanid=5": "[(c!\"vlanid\", .str c!\"5\")]"}}, "566": {"cmd": "part", "cls": "RHEL6_Partition.cls RHEL6_PartData.cls", "vs": [11100], "base": "/x --size=1", "bi": 0, "lines": ["--active", "--asprimary", "--start=42", "--end=42", "--fstype=QX", "--type=QX", "--grow", "--maxsize=42", "--noformat", "--onbiosdisk=QX", "--ondisk=QX", "--ondrive=QX", "--onpart=QX", "--usepart=QX", "--recommended", "--size=42", "--fsoptions=QX", "--label=QX", "--bytes-per-inode=QX", "--fsprofile=QX", "--encrypted", "--passphrase=QX", "--start=QX", "--end=QX", "--escrowcert=QX", "--backuppassphrase", "--resize", "--hibernation", "--cipher=QX", "--mkfsoptions=QX", "--luks-version=QX", "--pbkdf=QX", "--pbkdf-memory=42", "--pbkdf-time=42", "--pbkdf-iterations=42", "--bytes-per-inode=42"], "ok": true, "kind": "L", "d": "[(c!\"lineno\", .int 7), (c!\"active\", .bool false), (c!\"primOnly\", .bool false), (c!\"fstype\", .str c!\"\"), (c!\"grow\", .bool false), (c!\"maxSizeMB\", .int 0), (c!\"format\", .bool true), (c!\"onbiosdisk\", .str c!\"\"), (c!\"disk\", .str c!\"\"), (c!\"onPart\", .str c!\"\"), (c!\"recommended\", .bool false), (c!\"size\", .int 1), (c!\"mountpoint\", .str c!\"/x\"), (c!\"fsopts\", .str c!\"\"), (c!\"label\", .str c!\"\"), (c!\"fsprofile\", .str c!\"\"), (c!\"encrypted\", .bool false), (c!\"passphrase\", .str c!\"\"), (c!\"escrowcert\", .str c!\"\"), (c!\"backuppassphrase\", .bool false), (c!\"cipher\", .str c!\"\"), (c!\"hibernation\", .bool false), (c!\"mntpoint\", .list [c!\"/x\"])]", "bsets": "[]", "rows": {"--active": "[(c!\"active\", .bool true)]", "--asprimary": "[(c!\"primOnly\", .bool true)]", "--start=42": "[(c!\"start\", .str c!\"42\")]", "--end=42": "[(c!\"end\", .str c!\"42\")]", "--fstype=QX": "[(c!\"fstype\", .str c!\"QX\")]", "--type=QX": "[(c!\"fstype\", .str c!\"QX\")]", "--grow": "[(c!\"grow\", .bool true)]", "--maxsize=42": "[(c!\"maxSizeMB\", .int 42)]", "--noformat": "[(c!\"format\", .bool false)]", "--onbiosdisk=QX": "[(c!\"onbiosdisk\", .str c!\"QX\")]", "--ondisk=QX": "[(c!\"disk\", .str c!\"QX\")]", "--ondrive=QX": "[(c!\"disk\", .str c!\"QX\")]", "--onpart=QX": "[(c!\"onPart\", .str c!\"QX\")]", "--usepart=QX": "[(c!\"onPart\", .str c!\"QX\")]", "--recommended": "[(c!\"recommended\", .bool true)]", "--size=42": "[(c!\"size\", .int 42)]", "--fsoptions=QX": "[(c!\"fsopts\", .str c!\"QX\")]", "--label=QX": "[(c!\"label\", .str c!\"QX\")]", "--bytes-per-inode=QX": "[(c!\"bytes_per_inode\", .str c!\"QX\")]", "--fsprofile=QX": "[(c!\"fsprofile\", .str c!\"QX\")]", "--encrypted": "[(c!\"encrypted\", .bool true)]", "--passphrase=QX": "[(c!\"passphrase\", .str c!\"QX\")]", "--start=QX": "[(c!\"start\", .str c!\"QX\")]", "--end=QX": "[(c!\"end\", .str c!\"QX\")]", "--escrowcert=QX": "[(c!\"escrowcert\", .str c!\"QX\")]", "--backuppassphrase": "[(c!\"backuppassphrase\", .bool true)]", "--resize": "REFUSED", "--hibernation": "[(c!\"hibernation\", .bool true)]", "--cipher=QX": "[(c!\"cipher\", .str c!\"QX\")]", "--mkfsoptions=QX": "REFUSED", "--luks-version=QX": "REFUSED", "--pbkdf=QX": "REFUSED", "--pbkdf-memory=42": "REFUSED", "--pbkdf-time=42": "REFUSED", "--pbkdf-iterations=42": "REFUSED", "--bytes-per-inode=42": "[(c!\"bytes_per_inode\", .str c!\"42\")]"}}, "567": {"cmd": "part", "cls": "RHEL6_Partition.cls RHEL6_PartData.cls", "vs": [11100], "base": "/x --onpart=sda1 --size=1", "bi": 1, "lines": ["--resize", "--noformat"], "ok": true, "kind": "L", "d": "[(c!\"lineno\", .int 7), (c!\"active\", .bool false), (c!\"primOnly\", .bool false), (c!\"fstype\", .str c!\"\"), (c!\"grow\", .bool false), (c!\"maxSizeMB\", .int 0), (c!\"format\", .bool true), (c!\"onbiosdisk\", .str c!\"\"), (c!\"disk\", .str c!\"\"), (c!\"onPart\", .str c!\"sda1\"), (c!\"recommended\", .bool false), (c!\"size\", .int 1), (c!\"mountpoint\", .str c!\"/x\"), (c!\"fsopts\", .str c!\"\"), (c!\"label\", .str c!\"\"), (c!\"fsprofile\", .str c!\"\"), (c!\"encrypted\", .bool false), (c!\"passphrase\", .str c!\"\"), (c!\"escrowcert\", .str c!\"\"), (c!\"backuppassphrase\", .bool false), (c!\"cipher\", .str c!\"\"), (c!\"hibernation\", .bool false), (c!\"mntpoint\", .list [c!\"/x\"])]", "bsets": "[]", "rows": {"--resize": "REFUSED", "--noformat": "[(c!\"format\", .bool false)]"}}, "568": {"cmd": "partition", "cls": "RHEL6_Partition.cls RHEL6_PartData.cls", "vs": [11100], "base": "/x --size=1", "bi": 0, "lines": ["--active", "--asprimary", "--start=42", "--end=42", "--fstype=QX", "--type=QX", "--grow", "--maxsize=42", "--noformat", "--onbiosdisk=QX", "--ondisk=QX", "--ondrive=QX", "--onpart=QX", "--usepart=QX", "--recommended", "--size=42", "--fsoptions=QX", "--label=QX", "--bytes-per-inode=QX", "--fsprofile=QX", "--encrypted", "--passphrase=QX", "--start=QX", "--end=QX", "--escrowcert=QX", "--backuppassphrase", "--resize", "--hibernation", "--cipher=QX", "--mkfsoptions=QX", "--luks-version=QX", "--pbkdf=QX", "--pbkdf-memory=42", "--pbkdf-time=42", "--pbkdf-iterations=42", "--bytes-per-inode=42"], "ok": true, "kind": "L", "d": "[(c!\"lineno\", .int 7), (c!\"active\", .bool false), (c!\"primOnly\", .bool false), (c!\"fstype\", .str c!\"\"), (c!\"grow\", .bool false), (c!\"maxSizeMB\", .int 0), (c!\"format\", .bool true), (c!\"onbiosdisk\", .str c!\"\"), (c!\"disk\", .str c!\"\"), (c!\"onPart\", .str c!\"\"), (c!\"recommended\", .bool false), (c!\"size\", .int 1), (c!\"mountpoint\", .str c!\"/x\"), (c!\"fsopts\", .str c!\"\"), (c!\"label\", .str c!\"\"), (c!\"fsprofile\", .str c!\"\"), (c!\"encrypted\", .bool false), (c!\"passphrase\", .str c!\"\"), (c!\"escrowcert\", .str c!\"\"), (c!\"backuppassphrase\", .bool false), (c!\"cipher\", .str c!\"\"), (c!\"hibernation\", .bool false), (c!\"mntpoint\", .list [c!\"/x\"])]", "bsets": "[]", "rows": {"--active": "[(c!\"active\", .bool true)]", "--asprimary": "[(c!\"primOnly\", .bool true)]", "--start=42": "[(c!\"start\", .str c!\"42\")]", "--end=42": "[(c!\"end\", .str c!\"42\")]", "--fstype=QX": "[(c!\"fstype\", .str c!\"QX\")]", "--type=QX": "[(c!\"fstype\", .str c!\"QX\")]", "--grow": "[(c!\"grow\", .bool true)]", "--maxsize=42": "[(c!\"maxSizeMB\", .int 42)]", "--noformat": "[(c!\"format\", .bool false)]", "--onbiosdisk=QX": "[(c!\"onbiosdisk\", .str c!\"QX\")]", "--ondisk=QX": "[(c!\"disk\", .str c!\"QX\")]", "--ondrive=QX": "[(c!\"disk\", .str c!\"QX\")]", "--onpart=QX": "[(c!\"onPart\", .str c!\"QX\")]", "--usepart=QX": "[(c!\"onPart\", .str c!\"QX\")]", "--recommended": "[(c!\"recommended\", .bool true)]", "--size=42": "[(c!\"size\", .int 42)]", "--fsoptions=QX": "[(c!\"fsopts\", .str c!\"QX\")]", "--label=QX": "[(c!\"label\", .str c!\"QX\")]", "--bytes-per-inode=QX": "[(c!\"bytes_per_inode\", .str c!\"QX\")]", "--fsprofile=QX": "[(c!\"fsprofile\", .str c!\"QX\")]", "--encrypted": "[(c!\"encrypted\", .bool true)]", "--passphrase=QX": "[(c!\"passphrase\", .str c!\"QX\")]", "--start=QX": "[(c!\"start\", .str c!\"QX\")]", "--end=QX": "[(c!\"end\", .str c!\"QX\")]", "--escrowcert=QX": "[(c!\"escrowcert\", .str c!\"QX\")]", "--backuppassphrase": "[(c!\"backuppassphrase\", .bool true)]", "--resize": "REFUSED", "--hibernation": "[(c!\"hibernation\", .bool true)]", "--cipher=QX": "[(c!\"cipher\", .str c!\"QX\")]", "--mkfsoptions=QX": "REFUSED", "--luks-version=QX": "REFUSED", "--pbkdf=QX": "REFUSED", "--pbkdf-memory=42": "REFUSED", "--pbkdf-time=42": "REFUSED", "--pbkdf-iterations=42": "REFUSED", "--bytes-per-inode=42": "[(c!\"bytes_per_inode\", .str c!\"42\")]"}}, "569": {"cmd": "partition", "cls": "RHEL6_Partition.cls RHEL6_PartData.cls", "vs": [11100], "base": "/x --onpart=sda1 --size=1", "bi": 1, "lines": ["--resize", "--noformat"], "ok": true, "kind": "L", "d": "[(c!\"lineno\", .int 7), (c!\"active\", .bool false), (c!\"primOnly\", .bool false), (c!\"fstype\", .str c!\"\"), (c!\"grow\", .bool false), (c!\"maxSizeMB\", .int 0), (c!\"format\", .bool true), (c!\"onbiosdisk\", .str c!\"\"), (c!\"disk\", .str c!\"\"), (c!\"onPart\", .str c!\"sda1\"), (c!\"recommended\", .bool false), (c!\"size\", .int 1), (c!\"mountpoint\", .str c!\"/x\"), (c!\"fsopts\", .str c!\"\"), (c!\"label\", .str c!\"\"), (c!\"fsprofile\", .str c!\"\"), (c!\"encrypted\", .bool false), (c!\"passphrase\", .str c!\"\"), (c!\"escrowcert\", .str c!\"\"), (c!\"backuppassphrase\", .bool false), (c!\"cipher\", .str c!\"\"), (c!\"hibernation\", .bool false), (c!\"mntpoint\", .list [c!\"/x\"])]", "bsets": "[]", "rows": {"--resize": "REFUSED", "--noformat": "[(c!\"format\", .bool false)]"}}, "570": {"cmd": "raid", "cls": "RHEL6_Raid.cls RHEL6_RaidData.cls", "vs": [11100], "base": "/x --device=1 --level=RAID1 raid.1 raid.2", "bi": 0, "lines": ["--device=QX", "--fstype=QX", "--level=RAID0", "--level=0", "--level=RAID1", "--level=1", "--level=RAID5", "--level=5", "--level=RAID6", "--level=6", "--level=RAID10", "--level=10", "--noformat", "--spares=42", "--useexisting", "--fsoptions=QX", "--bytes-per-inode=QX", "--fsprofile=QX", "--encrypted", "--passphrase=QX", "--escrowcert=QX", "--backuppassphrase", "--level=RAID4", "--level=4", "--label=QX", "--cipher=QX", "--mkfsoptions=QX", "--chunksize=42", "--luks-version=QX", "--pbkdf=QX", "--pbkdf-memory=42", "--pbkdf-time=42", "--pbkdf-iterations=42", "--bytes-per-inode=42"], "ok": true, "kind": "L", "d": "[(c!\"lineno\", .int 7), (c!\"device\", .int 1), (c!\"fstype\", .str c!\"\"), (c!\"level\", .str c!\"RAID1\"), (c!\"format\", .bool true), (c!\"spares\", .int 0), (c!\"preexist\", .bool false), (c!\"mountpoint\", .str c!\"/x\"), (c!\"members\", .list [c!\"raid.1\", c!\"raid.2\"]), (c!\"fsopts\", .str c!\"\"), (c!\"fsprofile\", .str c!\"\"), (c!\"encrypted\", .bool false), (c!\"passphrase\", .str c!\"\"), (c!\"escrowcert\", .str c!\"\"), (c!\"backuppassphrase\", .bool false), (c!\"cipher\", .str c!\"\"), (c!\"mntpoint\", .list [c!\"/x\"]), (c!\"partitions\", .list [c!\"raid.1\", c!\"raid.2\"])]", "bsets": "[]", "rows": {"--device=QX": "REFUSED", "--fstype=QX": "[(c!\"fstype\", .str c!\"QX\")]", "--level=RAID0": "[(c!\"level\", .str c!\"RAID0\")]", "--level=0": "[(c!\"level\", .str c!\"RAID0\")]", "--level=RAID1": "[]", "--level=1": "[]", "--level=RAID5": "[(c!\"level\", .str c!\"RAID5\")]", "--level=5": "[(c!\"level\", .str c!\"RAID5\")]", "--level=RAID6": "[(c!\"level\", .str c!\"RAID6\")]", "--level=6": "[(c!\"level\", .str c!\"RAID6\")]", "--level=RAID10": "[(c!\"level\", .str c!\"RAID10\")]", "--level=10": "[(c!\"level\", .str c!\"RAID10\")]", "--noformat": "REFUSED", "--spares=42": "[(c!\"spares\", .int 42)]", "--useexisting": "REFUSED", "--fsoptions=QX": "[(c!\"fsopts\", .str c!\"QX\")]", "--bytes-per-inode=QX": "[(c!\"bytes_per_inode\", .str c!\"QX\")]", "--fsprofile=QX": "[(c!\"fsprofile\", .str c!\"QX\")]", "--encrypted": "[(c!\"encrypted\", .bool true)]", "--passphrase=QX": "[(c!\"passphrase\", .str c!\"QX\")]", "--escrowcert=QX": "[(c!\"escrowcert\", .str c!\"QX\")]", "--backuppassphrase": "[(c!\"backuppassphrase\", .bool true)]", "--level=RAID4": "[(c!\"level\", .str c!\"RAID4\")]", "--level=4": "[(c!\"level\", .str c!\"RAID4\")]", "--label=QX": "REFUSED", "--cipher=QX": "[(c!\"cipher\", .str c!\"QX\")]", "--mkfsoptions=QX": "REFUSED", "--chunksize=42": "REFUSED", "--luks-version=QX": "REFUSED", "--pbkdf=QX": "REFUSED", "--pbkdf-memory=42": "REFUSED", "--pbkdf-time=42": "REFUSED", "--pbkdf-iterations=42": "REFUSED", "--bytes-per-inode=42": "[(c!\"bytes_per_inode\", .str c!\"42\")]"}}, "571": {"cmd": "raid", "cls": "RHEL6_Raid.cls RHEL6_RaidData.cls", "vs": [11100], "base": "/x --device=1 --noformat", "bi": 1, "lines": ["--fstype=ext4", "--label=QX"], "ok": true, "kind": "L", "d": "[(c!\"lineno\", .int 7), (c!\"device\", .int 1), (c!\"fstype\", .str c!\"\"), (c!\"level\", .str c!\"\"), (c!\"format\", .bool false), (c!\"spares\", .int 0), (c!\"preexist\", .bool true), (c!\"mountpoint\", .str c!\"/x\"), (c!\"members\", .list []), (c!\"fsopts\", .str c!\"\"), (c!\"fsprofile\", .str c!\"\"), (c!\"encrypted\", .bool false), (c!\"passphrase\", .str c!\"\"), (c!\"escrowcert\", .str c!\"\"), (c!\"backuppassphrase\", .bool false), (c!\"cipher\", .str c!\"\"), (c!\"mntpoint\", .list [c!\"/x\"]), (c!\"partitions\", .list [])]", "bsets": "[]", "rows": {"--fstype=ext4": "[(c!\"fstype\", .str c!\"ext4\")]", "--label=QX": "REFUSED"}}, "572": {"cmd": "raid", "cls": "RHEL6_Raid.cls RHEL6_RaidData.cls", "vs": [11100], "base": "/x --device=1 --useexisting", "bi": 2, "lines": ["--fstype=ext4", "--label=QX"], "ok": true, "kind": "L", "d": "[(c!\"lineno\", .int 7), (c!\"device\", .int 1), (c!\"fstype\", .str c!\"\"), (c!\"level\", .str c!\"\"), (c!\"format\", .bool true), (c!\"spares\", .int 0), (c!\"preexist\", .bool true), (c!\"mountpoint\", .str c!\"/x\"), (c!\"members\", .list []), (c!\"fsopts\", .str c!\"\"), (c!\"fsprofile\", .str c!\"\"), (c!\"encrypted\", .bool false), (c!\"passphrase\", .str c!\"\"), (c!\"escrowcert\", .str c!\"\"), (c!\"backuppassphrase\", .bool false), (c!\"cipher\", .str c!\"\"), (c!\"mntpoint\", .list [c!\"/x\"]), (c!\"partitions\", .list [])]", "bsets": "[]", "rows": {"--fstype=ext4": "[(c!\"fstype\", .str c!\"ext4\")]", "--label=QX": "REFUSED"}}, "573": {"cmd": "raid", "cls": "RHEL6_Raid.cls RHEL6_RaidData.cls", "vs": [11100], "base": "/x --device=1 --level=RAID1 raid.1 raid.2 raid.3", "bi": 3, "lines": ["--device=md7", "--device=data", "--level=0", "--level=RAID5", "--level=raid6", "--level=10", "--level=linear", "--spares=1", "--spares=2"], "ok": true, "kind": "L", "d": "[(c!\"lineno\", .int 7), (c!\"device\", .int 1), (c!\"fstype\", .str c!\"\"), (c!\"level\", .str c!\"RAID1\"), (c!\"format\", .bool true), (c!\"spares\", .int 0), (c!\"preexist\", .bool false), (c!\"mountpoint\", .str c!\"/x\"), (c!\"members\", .list [c!\"raid.1\", c!\"raid.2\", c!\"raid.3\"]), (c!\"fsopts\", .str c!\"\"), (c!\"fsprofile\", .str c!\"\"), (c!\"encrypted\", .bool false), (c!\"passphrase\", .str c!\"\"), (c!\"escrowcert\", .str c!\"\"), (c!\"backuppassphrase\", .bool false), (c!\"cipher\", .str c!\"\"), (c!\"mntpoint\", .list [c!\"/x\"]), (c!\"partitions\", .list [c!\"raid.1\", c!\"raid.2\", c!\"raid.3\"])]", "bsets": "[]", "rows": {"--device=md7": "[(c!\"device\", .int 7)]", "--device=data": "REFUSED", "--level=0": "[(c!\"level\", .str c!\"RAID0\")]", "--level=RAID5": "[(c!\"level\", .str c!\"RAID5\")]", "--level=raid6": "[(c!\"level\", .str c!\"RAID6\")]", "--level=10": "[(c!\"level\", .str c!\"RAID10\")]", "--level=linear": "REFUSED", "--spares=1": "[(c!\"spares\", .int 1)]", "--spares=2": "[(c!\"spares\", .int 2)]"}}, "574": {"cmd": "repo", "cls": "RHEL6_Repo.cls RHEL6_RepoData.cls", "vs": [11100], "base": "--name=r --baseurl=b", "bi": 0, "lines": ["--name=QX", "--baseurl=QX", "--mirrorlist=QX", "--cost=42", "--excludepkgs=QX", "--includepkgs=QX", "--ignoregroups=yes", "--ignoregroups=off", "--proxy=QX", "--noverifyssl", "--install", "--metalink=QX", "--sslcacert=QX", "--sslclientcert=QX", "--sslclientkey=QX"], "ok": true, "kind": "L", "d": "[(c!\"lineno\", .int 7), (c!\"baseurl\", .str c!\"b\"), (c!\"mirrorlist\", .none), (c!\"name\", .str c!\"r\"), (c!\"cost\", .none), (c!\"includepkgs\", .list []), (c!\"excludepkgs\", .list []), (c!\"ignoregroups\", .none), (c!\"proxy\", .str c!\"\"), (c!\"noverifyssl\", .bool false)]", "bsets": "[]", "rows": {"--name=QX": "[(c!\"name\", .str c!\"QX\")]", "--baseurl=QX": "[(c!\"baseurl\", .str c!\"QX\")]", "--mirrorlist=QX": "REFUSED", "--cost=42": "[(c!\"cost\", .int 42)]", "--excludepkgs=QX": "[(c!\"excludepkgs\", .list [c!\"QX\"])]", "--includepkgs=QX": "[(c!\"includepkgs\", .list [c!\"QX\"])]", "--ignoregroups=yes": "[(c!\"ignoregroups\", .bool true)]", "--ignoregroups=off": "[(c!\"ignoregroups\", .bool false)]", "--proxy=QX": "[(c!\"proxy\", .str c!\"QX\")]", "--noverifyssl": "[(c!\"noverifyssl\", .bool true)]", "--install": "REFUSED", "--metalink=QX": "REFUSED", "--sslcacert=QX": "REFUSED", "--sslclientcert=QX": "REFUSED", "--sslclientkey=QX": "REFUSED"}}, "575": {"cmd": "repo", "cls": "RHEL6_Repo.cls RHEL6_RepoData.cls", "vs": [11100], "base": "--name=r --mirrorlist=m", "bi": 1, "lines": ["--baseurl=QX", "--metalink=QX"], "ok": true, "kind": "L", "d": "[(c!\"lineno\", .int 7), (c!\"baseurl\", .str c!\"\"), (c!\"mirrorlist\", .str c!\"m\"), (c!\"name\", .str c!\"r\"), (c!\"cost\", .none), (c!\"includepkgs\", .list []), (c!\"excludepkgs\", .list []), (c!\"ignoregroups\", .none), (c!\"proxy\", .str c!\"\"), (c!\"noverifyssl\", .bool false)]", "bsets": "[]", "rows": {"--baseurl=QX": "REFUSED", "--metalink=QX": "REFUSED"}}, "576": {"cmd": "repo", "cls": "RHEL6_Repo.cls RHEL6_RepoData.cls", "vs": [11100], "base": "--name=r --metalink=m", "bi": 2, "lines": ["--mirrorlist=QX"], "ok": false}, "577": {"cmd": "unsupported_hardware", "cls": "RHEL6_UnsupportedHardware.cls", "vs": [11100, 19100], "base": "", "bi": 0, "lines": ["x"], "ok": true, "kind": "P", "d": "[(c!\"unsupported_hardware\", .bool true)]", "bsets": "[(c!\"unsupported_hardware\", .bool true)]", "rows": {"x": "REFUSED"}}, "578": {"cmd": "url", "cls": "RHEL6_Url.cls", "vs": [11100], "base": "--url=U", "bi": 0, "lines": ["--url=QX", "--proxy=QX", "--noverifyssl", "--mirrorlist=QX", "--metalink=QX", "--sslcacert=QX", "--sslclientcert=QX", "--sslclientkey=QX"], "ok": true, "kind": "P", "d": "[(c!\"url\", .str c!\"U\"), (c!\"proxy\", .str c!\"\"), (c!\"noverifyssl\", .bool false)]", "bsets": "[(c!\"url\", .str c!\"U\")]", "rows": {"--url=QX": "[(c!\"url\", .str c!\"QX\")]", "--proxy=QX": "[(c!\"proxy\", .str c!\"QX\")]", "--noverifyssl": "[(c!\"noverifyssl\", .bool true)]", "--mirrorlist=QX": "REFUSED", "--metalink=QX": "REFUSED", "--sslcacert=QX": "REFUSED", "--sslclientcert=QX": "REFUSED", "--sslclientkey=QX": "REFUSED"}}, "579": {"cmd": "url", "cls": "RHEL6_Url.cls", "vs": [11100], "base": "--mirrorlist=M", "bi": 1, "lines": ["--proxy=QX", "--metalink=QX", "--url=QX"], "ok": false}, "580": {"cmd": "url", "cls": "RHEL6_Url.cls", "vs": [11100], "base": "--metalink=M", "bi": 2, "lines": ["--mirrorlist=QX"], "ok": false}, "581": {"cmd": "autopart", "cls": "RHEL7_AutoPart.cls", "vs": [19100], "base": "", "bi": 0, "lines": ["--encrypted", "--passphrase=QX", "--escrowcert=QX", "--backuppassphrase", "--nolvm", "--type=lvm", "--type=btrfs", "--type=plain", "--type=partition", "--cipher=QX", "--type=thinp", "--fstype=QX", "--nohome", "--noboot", "--noswap", "--luks-version=QX", "--pbkdf=QX", "--pbkdf-memory=42", "--pbkdf-time=42", "--pbkdf-iterations=42"], "ok": true, "kind": "P", "d": "[(c!\"autopart\", .bool true), (c!\"encrypted\", .bool false), (c!\"passphrase\", .str c!\"\"), (c!\"escrowcert\", .str c!\"\"), (c!\"backuppassphrase\", .bool false), (c!\"lvm\", .bool true), (c!\"type\", .none), (c!\"cipher\", .str c!\"\"), (c!\"fstype\", .str c!\"\"), (c!\"nohome\", .bool false)]", "bsets": "[(c!\"autopart\", .bool true)]", "rows": {"--encrypted": "[(c!\"encrypted\", .bool true)]", "--passphrase=QX": "[(c!\"passphrase\", .str c!\"QX\")]", "--escrowcert=QX": "[(c!\"escrowcert\", .str c!\"QX\")]", "--backuppassphrase": "[(c!\"backuppassphrase\", .bool true)]", "--nolvm": "[(c!\"type\", .int 0)]", "--type=lvm": "[(c!\"type\", .int 2)]", "--type=btrfs": "[(c!\"type\", .int 1)]", "--type=plain": "[(c!\"type\", .int 0)]", "--type=partition": "[(c!\"type\", .int 0)]", "--cipher=QX": "[(c!\"cipher\", .str c!\"QX\")]", "--type=thinp": "[(c!\"type\", .int 3)]", "--fstype=QX": "[(c!\"fstype\", .str c!\"QX\")]", "--nohome": "[(c!\"nohome\", .bool true)]", "--noboot": "REFUSED", "--noswap": "REFUSED", "--luks-version=QX": "REFUSED", "--pbkdf=QX": "REFUSED", "--pbkdf-memory=42": "REFUSED", "--pbkdf-time=42": "REFUSED", "--pbkdf-iterations=42": "REFUSED"}}, "582": {"cmd": "bootloader", "cls": "RHEL7_Bootloader.cls", "vs": [19100], "base": "", "bi": 0, "lines": ["--append=QX", "--location=mbr", "--location=partition", "--location=none", "--location=boot", "--lba32", "--password=QX", "--md5pass=QX", "--upgrade", "--driveorder=QX", "--timeout=42", "--default=QX", "--iscrypted", "--boot-drive=QX", "--leavebootorder", "--extlinux", "--disabled", "--nombr", "--linear", "--nolinear", "--useLilo", "--hvargs=QX"], "ok": true, "kind": "P", "d": "[(c!\"driveorder\", .list []), (c!\"appendLine\", .str c!\"\"), (c!\"location\", .str c!\"mbr\"), (c!\"md5pass\", .str c!\"\"), (c!\"password\", .str c!\"\"), (c!\"upgrade\", .bool false), (c!\"timeout\", .none), (c!\"default\", .str c!\"\"), (c!\"isCrypted\", .bool false), (c!\"bootDrive\", .str c!\"\"), (c!\"leavebootorder\", .bool false), (c!\"extlinux\", .bool false), (c!\"disabled\", .bool false), (c!\"nombr\", .bool false)]", "bsets": "[(c!\"location\", .str c!\"mbr\")]", "rows": {"--append=QX": "[(c!\"appendLine\", .str c!\"QX\")]", "--location=mbr": "[]", "--location=partition": "[(c!\"location\", .str c!\"partition\")]", "--location=none": "[(c!\"location\", .str c!\"none\")]", "--location=boot": "[(c!\"location\", .str c!\"boot\")]", "--lba32": "REFUSED", "--password=QX": "[(c!\"password\", .str c!\"QX\")]", "--md5pass=QX": "[(c!\"password\", .str c!\"QX\"), (c!\"isCrypted\", .bool true)]", "--upgrade": "[(c!\"upgrade\", .bool true)]", "--driveorder=QX": "[(c!\"driveorder\", .list [c!\"QX\"])]", "--timeout=42": "[(c!\"timeout\", .int 42)]", "--default=QX": "[(c!\"default\", .str c!\"QX\")]", "--iscrypted": "[(c!\"isCrypted\", .bool true)]", "--boot-drive=QX": "[(c!\"bootDrive\", .str c!\"QX\")]", "--leavebootorder": "[(c!\"leavebootorder\", .bool true)]", "--extlinux": "[(c!\"extlinux\", .bool true)]", "--disabled": "[(c!\"disabled\", .bool true)]", "--nombr": "[(c!\"nombr\", .bool true)]", "--linear": "REFUSED", "--nolinear": "REFUSED", "--useLilo": "REFUSED", "--hvargs=QX": "REFUSED"}}, "583": {"cmd": "btrfs", "cls": "RHEL7_BTRFS.cls RHEL7_BTRFSData.cls", "vs": [19100], "base": "/x a", "bi": 0, "lines": ["--noformat", "--useexisting", "--label=QX", "--data=raid0", "--data=0", "--data=raid1", "--data=1", "--data=raid10", "--data=10", "--data=single", "--metadata=raid0", "--metadata=0", "--metadata=raid1", "--metadata=1", "--metadata=raid10", "--metadata=10", "--metadata=single", "--subvol", "--parent=QX", "--name=QX", "--mkfsoptions=QX"], "ok": true, "kind": "L", "d": "[(c!\"lineno\", .int 7), (c!\"format\", .bool true), (c!\"preexist\", .bool false), (c!\"label\", .str c!\"\"), (c!\"mountpoint\", .str c!\"/x\"), (c!\"devices\", .list [c!\"a\"]), (c!\"dataLevel\", .none), (c!\"metaDataLevel\", .none), (c!\"subvol\", .bool false), (c!\"parent\", .str c!\"\"), (c!\"name\", .str c!\"\"), (c!\"mkfsopts\", .str c!\"\")]", "bsets": "[]", "rows": {"--noformat": "[(c!\"format\", .bool false), (c!\"preexist\", .bool true)]", "--useexisting": "[(c!\"format\", .bool false), (c!\"preexist\", .bool true)]", "--label=QX": "[(c!\"label\", .str c!\"QX\")]", "--data=raid0": "[(c!\"dataLevel\", .str c!\"raid0\")]", "--data=0": "[(c!\"dataLevel\", .str c!\"raid0\")]", "--data=raid1": "[(c!\"dataLevel\", .str c!\"raid1\")]", "--data=1": "[(c!\"dataLevel\", .str c!\"raid1\")]", "--data=raid10": "[(c!\"dataLevel\", .str c!\"raid10\")]", "--data=10": "[(c!\"dataLevel\", .str c!\"raid10\")]", "--data=single": "[(c!\"dataLevel\", .str c!\"single\")]", "--metadata=raid0": "[(c!\"metaDataLevel\", .str c!\"raid0\")]", "--metadata=0": "[(c!\"metaDataLevel\", .str c!\"raid0\")]", "--metadata=raid1": "[(c!\"metaDataLevel\", .str c!\"raid1\")]", "--metadata=1": "[(c!\"metaDataLevel\", .str c!\"raid1\")]", "--metadata=raid10": "[(c!\"metaDataLevel\", .str c!\"raid10\")]", "--metadata=10": "[(c!\"metaDataLevel\", .str c!\"raid10\")]", "--metadata=single": "[(c!\"metaDataLevel\", .str c!\"single\")]", "--subvol": "REFUSED", "--parent=QX": "[(c!\"parent\", .str c!\"QX\")]", "--name=QX": "[(c!\"name\", .str c!\"QX\")]", "--mkfsoptions=QX": "[(c!\"mkfsopts\", .str c!\"QX\")]"}}, "584": {"cmd": "btrfs", "cls": "RHEL7_BTRFS.cls RHEL7_BTRFSData.cls", "vs": [19100], "base": "/x --subvol --name=s LABEL=l", "bi": 1, "lines": ["--parent=QX"], "ok": true, "kind": "L", "d": "[(c!\"lineno\", .int 7), (c!\"format\", .bool true), (c!\"preexist\", .bool false), (c!\"label\", .str c!\"\"), (c!\"mountpoint\", .str c!\"/x\"), (c!\"devices\", .list [c!\"LABEL=l\"]), (c!\"dataLevel\", .none), (c!\"metaDataLevel\", .none), (c!\"subvol\", .bool true), (c!\"parent\", .str c!\"\"), (c!\"name\", .str c!\"s\"), (c!\"mkfsopts\", .str c!\"\")]", "bsets": "[]", "rows": {"--parent=QX": "[(c!\"parent\", .str c!\"QX\")]"}}, "585": {"cmd": "btrfs", "cls": "RHEL7_BTRFS.cls RHEL7_BTRFSData.cls", "vs": [19100], "base": "/x --noformat LABEL=l", "bi": 2, "lines": ["--useexisting"], "ok": true, "kind": "L", "d": "[(c!\"lineno\", .int 7), (c!\"format\", .bool false), (c!\"preexist\", .bool true), (c!\"label\", .str c!\"\"), (c!\"mountpoint\", .str c!\"/x\"), (c!\"devices\", .list [c!\"LABEL=l\"]), (c!\"dataLevel\", .none), (c!\"metaDataLevel\", .none), (c!\"subvol\", .bool false), (c!\"parent\", .str c!\"\"), (c!\"name\", .str c!\"\"), (c!\"mkfsopts\", .str c!\"\")]", "bsets": "[]", "rows": {"--useexisting": "[]"}}, "586": {"cmd": "clearpart", "cls": "RHEL7_ClearPart.cls", "vs": [19100], "base": "", "bi": 0, "lines": ["--all", "--drives=QX", "--initlabel", "--linux", "--none", "--list=QX", "--disklabel=QX", "--cdl"], "ok": true, "kind": "P", "d": "[(c!\"drives\", .list []), (c!\"initAll\", .bool false), (c!\"type\", .none), (c!\"devices\", .list []), (c!\"disklabel\", .str c!\"\"), (c!\"cdl\", .bool false)]", "bsets": "[]", "rows": {"--all": "[(c!\"type\", .int 1)]", "--drives=QX": "[(c!\"drives\", .list [c!\"QX\"])]", "--initlabel": "[(c!\"initAll\", .bool true)]", "--linux": "[(c!\"type\", .int 0)]", "--none": "[(c!\"type\", .int 2)]", "--list=QX": "[(c!\"type\", .int 3), (c!\"devices\", .list [c!\"QX\"])]", "--disklabel=QX": "[(c!\"disklabel\", .str c!\"QX\")]", "--cdl": "[(c!\"cdl\", .bool true)]"}}, "587": {"cmd": "clearpart", "cls": "RHEL7_ClearPart.cls", "vs": [19100], "base": "--all", "bi": 1, "lines": ["--initlabel", "--drives=QX", "--linux"], "ok": true, "kind": "P", "d": "[(c!\"drives\", .list []), (c!\"initAll\", .bool false), (c!\"type\", .int 1), (c!\"devices\", .list []), (c!\"disklabel\", .str c!\"\"), (c!\"cdl\", .bool false)]", "bsets": "[(c!\"type\", .int 1)]", "rows": {"--initlabel": "[(c!\"initAll\", .bool true)]", "--drives=QX": "[(c!\"drives\", .list [c!\"QX\"])]", "--linux": "[(c!\"type\", .int 0)]"}}, "588": {"cmd": "fcoe", "cls": "RHEL7_Fcoe.cls RHEL7_FcoeData.cls", "vs": [19100], "base": "--nic=n", "bi": 0, "lines": ["--nic=QX", "--dcb", "--autovlan"], "ok": true, "kind": "L", "d": "[(c!\"lineno\", .int 7), (c!\"nic\", .str c!\"n\"), (c!\"dcb\", .bool false), (c!\"autovlan\", .bool false)]", "bsets": "[]", "rows": {"--nic=QX": "[(c!\"nic\", .str c!\"QX\")]", "--dcb": "[(c!\"dcb\", .bool true)]", "--autovlan": "[(c!\"autovlan\", .bool true)]"}}, "589": {"cmd": "hmc", "cls": "RHEL7_Hmc.cls", "vs": [19100], "base": "", "bi": 0, "lines": ["x", "--x"], "ok": true, "kind": "P", "d": "[]", "bsets": "[]", "rows": {"x": "REFUSED", "--x": "REFUSED"}}, "590": {"cmd": "logvol", "cls": "RHEL7_LogVol.cls RHEL7_LogVolData.cls", "vs": [19100], "base": "/x --name=n --vgname=g --size=1", "bi": 0, "lines": ["--fstype=QX", "--grow", "--maxsize=42", "--name=QX", "--noformat", "--percent=42", "--recommended", "--size=42", "--useexisting", "--vgname=QX", "--fsoptions=QX", "--bytes-per-inode=QX", "--fsprofile=QX", "--encrypted", "--passphrase=QX", "--escrowcert=QX", "--backuppassphrase", "--label=QX", "--resize", "--hibernation", "--cipher=QX", "--thinpool", "--thin", "--poolname=QX", "--chunksize=42", "--metadatasize=42", "--profile=QX", "--cachesize=42", "--cachemode=QX", "--cachepvs=QX", "--mkfsoptions=QX", "--luks-version=QX", "--pbkdf=QX", "--pbkdf-memory=42", "--pbkdf-time=42", "--pbkdf-iterations=42", "--bytes-per-inode=42"], "ok": true, "kind": "L", "d": "[(c!\"lineno\", .int 7), (c!\"fstype\", .str c!\"\"), (c!\"grow\", .bool false), (c!\"maxSizeMB\", .int 0), (c!\"name\", .str c!\"n\"), (c!\"format\", .bool true), (c!\"percent\", .int 0), (c!\"recommended\", .bool false), (c!\"size\", .int 1), (c!\"preexist\", .bool false), (c!\"vgname\", .str c!\"g\"), (c!\"mountpoint\", .str c!\"/x\"), (c!\"fsopts\", .str c!\"\"), (c!\"fsprofile\", .str c!\"\"), (c!\"encrypted\", .bool false), (c!\"passphrase\", .str c!\"\"), (c!\"escrowcert\", .str c!\"\"), (c!\"backuppassphrase\", .bool false), (c!\"label\", .str c!\"\"), (c!\"resize\", .bool false), (c!\"hibernation\", .bool false), (c!\"cipher\", .str c!\"\"), (c!\"thin_pool\", .bool false), (c!\"thin_volume\", .bool false), (c!\"pool_name\", .str c!\"\"), (c!\"chunk_size\", .none), (c!\"metadata_size\", .none), (c!\"profile\", .str c!\"\"), (c!\"mkfsopts\", .str c!\"\"), (c!\"mntpoint\", .list [c!\"/x\"])]", "bsets": "[]", "rows": {"--fstype=QX": "[(c!\"fstype\", .str c!\"QX\")]", "--grow": "[(c!\"grow\", .bool true)]", "--maxsize=42": "[(c!\"maxSizeMB\", .int 42)]", "--name=QX": "[(c!\"name\", .str c!\"QX\")]", "--noformat": "[(c!\"format\", .bool false), (c!\"preexist\", .bool true)]", "--percent=42": "REFUSED", "--recommended": "[(c!\"recommended\", .bool true)]", "--size=42": "[(c!\"size\", .int 42)]", "--useexisting": "[(c!\"preexist\", .bool true)]", "--vgname=QX": "[(c!\"vgname\", .str c!\"QX\")]", "--fsoptions=QX": "[(c!\"fsopts\", .str c!\"QX\")]", "--bytes-per-inode=QX": "REFUSED", "--fsprofile=QX": "[(c!\"fsprofile\", .str c!\"QX\")]", "--encrypted": "[(c!\"encrypted\", .bool true)]", "--passphrase=QX": "[(c!\"passphrase\", .str c!\"QX\")]", "--escrowcert=QX": "[(c!\"escrowcert\", .str c!\"QX\")]", "--backuppassphrase": "[(c!\"backuppassphrase\", .bool true)]", "--label=QX": "[(c!\"label\", .str c!\"QX\")]", "--resize": "REFUSED", "--hibernation": "[(c!\"hibernation\", .bool true)]", "--cipher=QX": "[(c!\"cipher\", .str c!\"QX\")]", "--thinpool": "[(c!\"thin_pool\", .bool true)]", "--thin": "REFUSED", "--poolname=QX": "[(c!\"pool_name\", .str c!\"QX\")]", "--chunksize=42": "REFUSED", "--metadatasize=42": "REFUSED", "--profile=QX": "[(c!\"profile\", .str c!\"QX\")]", "--cachesize=42": "REFUSED", "--cachemode=QX": "REFUSED", "--cachepvs=QX": "REFUSED", "--mkfsoptions=QX": "[(c!\"mkfsopts\", .str c!\"QX\")]", "--luks-version=QX": "REFUSED", "--pbkdf=QX": "REFUSED", "--pbkdf-memory=42": "REFUSED", "--pbkdf-time=42": "REFUSED", "--pbkdf-iterations=42": "REFUSED", "--bytes-per-inode=42": "REFUSED"}}, "591": {"cmd": "logvol", "cls": "RHEL7_LogVol.cls RHEL7_LogVolData.cls", "vs": [19100], "base": "/x --name=n --vgname=g --useexisting", "bi": 1, "lines": ["--size=42", "--resize", "--noformat", "--fstype=ext4"], "ok": true, "kind": "L", "d": "[(c!\"lineno\", .int 7), (c!\"fstype\", .str c!\"\"), (c!\"grow\", .bool false), (c!\"maxSizeMB\", .int 0), (c!\"name\", .str c!\"n\"), (c!\"format\", .bool true), (c!\"percent\", .int 0), (c!\"recommended\", .bool false), (c!\"size\", .none), (c!\"preexist\", .bool true), (c!\"vgname\", .str c!\"g\"), (c!\"mountpoint\", .str c!\"/x\"), (c!\"fsopts\", .str c!\"\"), (c!\"fsprofile\", .str c!\"\"), (c!\"encrypted\", .bool false), (c!\"passphrase\", .str c!\"\"), (c!\"escrowcert\", .str c!\"\"), (c!\"backuppassphrase\", .bool false), (c!\"label\", .str c!\"\"), (c!\"resize\", .bool false), (c!\"hibernation\", .bool false), (c!\"cipher\", .str c!\"\"), (c!\"thin_pool\", .bool false), (c!\"thin_volume\", .bool false), (c!\"pool_name\", .str c!\"\"), (c!\"chunk_size\", .none), (c!\"metadata_size\", .none), (c!\"profile\", .str c!\"\"), (c!\"mkfsopts\", .str c!\"\"), (c!\"mntpoint\", .list [c!\"/x\"])]", "bsets": "[]", "rows": {"--size=42": "[(c!\"size\", .int 42)]", "--resize": "REFUSED", "--noformat": "[(c!\"format\", .bool false)]", "--fstype=ext4": "[(c!\"fstype\", .str c!\"ext4\")]"}}, "592": {"cmd": "logvol", "cls": "RHEL7_LogVol.cls RHEL7_LogVolData.cls", "vs": [19100], "base": "/x --name=n --vgname=g", "bi": 2, "lines": ["--percent=42", "--useexisting", "--noformat"], "ok": false}, "593": {"cmd": "logvol", "cls": "RHEL7_LogVol.cls RHEL7_LogVolData.cls", "vs": [19100], "base": "/x --name=n --vgname=g --size=1 --poolname=p", "bi": 3, "lines": ["--thin", "--thinpool", "--label=QX"], "ok": true, "kind": "L", "d": "[(c!\"lineno\", .int 7), (c!\"fstype\", .str c!\"\"), (c!\"grow\", .bool false), (c!\"maxSizeMB\", .int 0), (c!\"name\", .str c!\"n\"), (c!\"format\", .bool true), (c!\"percent\", .int 0), (c!\"recommended\", .bool false), (c!\"size\", .int 1), (c!\"preexist\", .bool false), (c!\"vgname\", .str c!\"g\"), (c!\"mountpoint\", .str c!\"/x\"), (c!\"fsopts\", .str c!\"\"), (c!\"fsprofile\", .str c!\"\"), (c!\"encrypted\", .bool false), (c!\"passphrase\", .str c!\"\"), (c!\"escrowcert\", .str c!\"\"), (c!\"backuppassphrase\", .bool false), (c!\"label\", .str c!\"\"), (c!\"resize\", .bool false), (c!\"hibernation\", .bool false), (c!\"cipher\", .str c!\"\"), (c!\"thin_pool\", .bool false), (c!\"thin_volume\", .bool false), (c!\"pool_name\", .str c!\"p\"), (c!\"chunk_size\", .none), (c!\"metadata_size\", .none), (c!\"profile\", .str c!\"\"), (c!\"mkfsopts\", .str c!\"\"), (c!\"mntpoint\", .list [c!\"/x\"])]", "bsets": "[]", "rows": {"--thin": "[(c!\"thin_volume\", .bool true)]", "--thinpool": "[(c!\"thin_pool\", .bool true)]", "--label=QX": "[(c!\"label\", .str c!\"QX\")]"}}, "594": {"cmd": "logvol", "cls": "RHEL7_LogVol.cls RHEL7_LogVolData.cls", "vs": [19100], "base": "none --name=n --vgname=g --size=1 --thinpool", "bi": 4, "lines": ["--chunksize=42", "--metadatasize=42", "--profile=QX", "--grow"], "ok": true, "kind": "L", "d": "[(c!\"lineno\", .int 7), (c!\"fstype\", .str c!\"\"), (c!\"grow\", .bool false), (c!\"maxSizeMB\", .int 0), (c!\"name\", .str c!\"n\"), (c!\"format\", .bool true), (c!\"percent\", .int 0), (c!\"recommended\", .bool false), (c!\"size\", .int 1), (c!\"preexist\", .bool false), (c!\"vgname\", .str c!\"g\"), (c!\"mountpoint\", .str c!\"none\"), (c!\"fsopts\", .str c!\"\"), (c!\"fsprofile\", .str c!\"\"), (c!\"encrypted\", .bool false), (c!\"passphrase\", .str c!\"\"), (c!\"escrowcert\", .str c!\"\"), (c!\"backuppassphrase\", .bool false), (c!\"label\", .str c!\"\"), (c!\"resize\", .bool false), (c!\"hibernation\", .bool false), (c!\"cipher\", .str c!\"\"), (c!\"thin_pool\", .bool true), (c!\"thin_volume\", .bool false), (c!\"pool_name\", .str c!\"\"), (c!\"chunk_size\", .none), (c!\"metadata_size\", .none), (c!\"profile\", .str c!\"\"), (c!\"mkfsopts\", .str c!\"\"), (c!\"mntpoint\", .list [c!\"none\"])]", "bsets": "[]", "rows": {"--chunksize=42": "[(c!\"chunk_size\", .int 42)]", "--metadatasize=42": "[(c!\"metadata_size\", .int 42)]", "--profile=QX": "[(c!\"profile\", .str c!\"QX\")]", "--grow": "[(c!\"grow\", .bool true)]"}}, "595": {"cmd": "logvol", "cls": "RHEL7_LogVol.cls RHEL7_LogVolData.cls", "vs": [19100], "base": "/x --name=n --vgname=g --size=1 --cachepvs=a --cachesize=5", "bi": 5, "lines": ["--cachemode=writeback", "--cachemode=writethrough"], "ok": false}, "596": {"cmd": "network", "cls": "RHEL7_Network.cls RHEL7_NetworkData.cls", "vs": [19100], "base": "", "bi": 0, "lines": ["--bootproto=dhcp", "--bootproto=bootp", "--bootproto=static", "--bootproto=query", "--dhcpclass=QX", "--device=QX", "--essid=QX", "--ethtool=QX", "--gateway=QX", "--hostname=QX", "--ip=QX", "--mtu=QX", "--nameserver=QX", "--netmask=QX", "--nodns", "--onboot=yes", "--onboot=off", "--wepkey=QX", "--notksdevice", "--noipv4", "--noipv6", "--ipv6=QX", "--bootproto=ibft", "--activate", "--nodefroute", "--wpakey=QX", "--bondslaves=QX", "--bondopts=QX", "--vlanid=QX", "--ipv6gateway=QX", "--teamslaves=QX", "--teamconfig=QX", "--interfacename=QX", "--bridgeslaves=QX", "--bridgeopts=QX", "--no-activate", "--bindto=mac"], "ok": true, "kind": "L", "d": "[(c!\"lineno\", .int 7), (c!\"bootProto\", .str c!\"dhcp\"), (c!\"dhcpclass\", .str c!\"\"), (c!\"device\", .str c!\"\"), (c!\"essid\", .str c!\"\"), (c!\"ethtool\", .str c!\"\"), (c!\"gateway\", .str c!\"\"), (c!\"hostname\", .str c!\"\"), (c!\"ip\", .str c!\"\"), (c!\"mtu\", .str c!\"\"), (c!\"nameserver\", .str c!\"\"), (c!\"netmask\", .str c!\"\"), (c!\"nodns\", .bool false), (c!\"onboot\", .bool true), (c!\"wepkey\", .str c!\"\"), (c!\"notksdevice\", .bool false), (c!\"noipv4\", .bool false), (c!\"noipv6\", .bool false), (c!\"ipv6\", .str c!\"\"), (c!\"activate\", .none), (c!\"nodefroute\", .bool false), (c!\"wpakey\", .str c!\"\"), (c!\"bondslaves\", .str c!\"\"), (c!\"bondopts\", .str c!\"\"), (c!\"vlanid\", .str c!\"\"), (c!\"ipv6gateway\", .str c!\"\"), (c!\"teamslaves\", .list []), (c!\"teamconfig\", .str c!\"\"), (c!\"interfacename\", .str c!\"\"), (c!\"bridgeslaves\", .str c!\"\"), (c!\"bridgeopts\", .str c!\"\"), (c!\"bindto\", .none)]", "bsets": "[]", "rows": {"--bootproto=dhcp": "[]", "--bootproto=bootp": "[(c!\"bootProto\", .str c!\"bootp\")]", "--bootproto=static": "[(c!\"bootProto\", .str c!\"static\")]", "--bootproto=query": "[(c!\"bootProto\", .str c!\"query\")]", "--dhcpclass=QX": "[(c!\"dhcpclass\", .str c!\"QX\")]", "--device=QX": "[(c!\"device\", .str c!\"QX\")]", "--essid=QX": "[(c!\"essid\", .str c!\"QX\")]", "--ethtool=QX": "[(c!\"ethtool\", .str c!\"QX\")]", "--gateway=QX": "[(c!\"gateway\", .str c!\"QX\")]", "--hostname=QX": "[(c!\"hostname\", .str c!\"QX\")]", "--ip=QX": "[(c!\"ip\", .str c!\"QX\")]", "--mtu=QX": "[(c!\"mtu\", .str c!\"QX\")]", "--nameserver=QX": "[(c!\"nameserver\", .str c!\"QX\")]", "--netmask=QX": "[(c!\"netmask\", .str c!\"QX\")]", "--nodns": "[(c!\"nodns\", .bool true)]", "--onboot=yes": "[]", "--onboot=off": "[(c!\"onboot\", .bool false)]", "--wepkey=QX": "[(c!\"wepkey\", .str c!\"QX\")]", "--notksdevice": "[(c!\"notksdevice\", .bool true)]", "--noipv4": "[(c!\"noipv4\", .bool true)]", "--noipv6": "[(c!\"noipv6\", .bool true)]", "--ipv6=QX": "[(c!\"ipv6\", .str c!\"QX\")]", "--bootproto=ibft": "[(c!\"bootProto\", .str c!\"ibft\")]", "--activate": "[(c!\"activate\", .bool true)]", "--nodefroute": "[(c!\"nodefroute\", .bool true)]", "--wpakey=QX": "[(c!\"wpakey\", .str c!\"QX\")]", "--bondslaves=QX": "[(c!\"bondslaves\", .str c!\"QX\")]", "--bondopts=QX": "[(c!\"bondopts\", .str c!\"QX\")]", "--vlanid=QX": "[(c!\"vlanid\", .str c!\"QX\")]", "--ipv6gateway=QX": "[(c!\"ipv6gateway\", .str c!\"QX\")]", "--teamslaves=QX": "[(c!\"teamslaves\", .pairs [(c!\"QX\", c!\"\")])]", "--teamconfig=QX": "[(c!\"teamconfig\", .str c!\"QX\")]", "--interfacename=QX": "[(c!\"interfacename\", .str c!\"QX\")]", "--bridgeslaves=QX": "[(c!\"bridgeslaves\", .str c!\"QX\")]", "--bridgeopts=QX": "REFUSED", "--no-activate": "[(c!\"activate\", .bool false)]", "--bindto=mac": "[(c!\"bindto\", .str c!\"mac\")]"}}, "597": {"cmd": "network", "cls": "RHEL7_Network.cls RHEL7_NetworkData.cls", "vs": [19100], "base": "--device=b --bridgeslaves=e", "bi": 1, "lines": ["--bridgeopts=stp=6", "--bridgeopts=stp", "--bridgeslaves=a,b"], "ok": true, "kind": "L", "d": "[(c!\"lineno\", .int 7), (c!\"bootProto\", .str c!\"dhcp\"), (c!\"dhcpclass\", .str c!\"\"), (c!\"device\", .str c!\"b\"), (c!\"essid\", .str c!\"\"), (c!\"ethtool\", .str c!\"\"), (c!\"gateway\", .str c!\"\"), (c!\"hostname\", .str c!\"\"), (c!\"ip\", .str c!\"\"), (c!\"mtu\", .str c!\"\"), (c!\"nameserver\", .str c!\"\"), (c!\"netmask\", .str c!\"\"), (c!\"nodns\", .bool false), (c!\"onboot\", .bool true), (c!\"wepkey\", .str c!\"\"), (c!\"notksdevice\", .bool false), (c!\"noipv4\", .bool false), (c!\"noipv6\", .bool false), (c!\"ipv6\", .str c!\"\"), (c!\"activate\", .none), (c!\"nodefroute\", .bool false), (c!\"wpakey\", .str c!\"\"), (c!\"bondslaves\", .str c!\"\"), (c!\"bondopts\", .str c!\"\"), (c!\"vlanid\", .str c!\"\"), (c!\"ipv6gateway\", .str c!\"\"), (c!\"teamslaves\", .list []), (c!\"teamconfig\", .str c!\"\"), (c!\"interfacename\", .str c!\"\"), (c!\"bridgeslaves\", .str c!\"e\"), (c!\"bridgeopts\", .str c!\"\"), (c!\"bindto\", .none)]", "bsets": "[]", "rows": {"--bridgeopts=stp=6": "[(c!\"bridgeopts\", .str c!\"stp=6\")]", "--bridgeopts=stp": "REFUSED", "--bridgeslaves=a,b": "[(c!\"bridgeslaves\", .str c!\"a,b\")]"}}, "598": {"cmd": "network", "cls": "RHEL7_Network.cls RHEL7_NetworkData.cls", "vs": [19100], "base": "--bootproto=static --ip=i", "bi": 2, "lines": ["--netmask=QX", "--gateway=QX"], "ok": true, "kind": "L", "d": "[(c!\"lineno\", .int 7), (c!\"bootProto\", .str c!\"static\"), (c!\"dhcpclass\", .str c!\"\"), (c!\"device\", .str c!\"\"), (c!\"essid\", .str c!\"\"), (c!\"ethtool\", .str c!\"\"), (c!\"gateway\", .str c!\"\"), (c!\"hostname\", .str c!\"\"), (c!\"ip\", .str c!\"i\"), (c!\"mtu\", .str c!\"\"), (c!\"nameserver\", .str c!\"\"), (c!\"netmask\", .str c!\"\"), (c!\"nodns\", .bool false), (c!\"onboot\", .bool true), (c!\"wepkey\", .str c!\"\"), (c!\"notksdevice\", .bool false), (c!\"noipv4\", .bool false), (c!\"noipv6\", .bool false), (c!\"ipv6\", .str c!\"\"), (c!\"activate\", .none), (c!\"nodefroute\", .bool false), (c!\"wpakey\", .str c!\"\"), (c!\"bondslaves\", .str c!\"\"), (c!\"bondopts\", .str c!\"\"), (c!\"vlanid\", .str c!\"\"), (c!\"ipv6gateway\", .str c!\"\"), (c!\"teamslaves\", .list []), (c!\"teamconfig\", .str c!\"\"), (c!\"interfacename\", .str c!\"\"), (c!\"bridgeslaves\", .str c!\"\"), (c!\"bridgeopts\", .str c!\"\"), (c!\"bindto\", .none)]", "bsets": "[]", "rows": {"--netmask=QX": "[(c!\"netmask\", .str c!\"QX\")]", "--gateway=QX": "[(c!\"gateway\", .str c!\"QX\")]"}}, "599": {"cmd": "network", "cls": "RHEL7_Network.cls RHEL7_NetworkData.cls", "vs": [19100], "base": "--device=t", "bi": 3, "lines": ["--teamslaves=a", "--bondslaves=a,b", "--vlanid=5"], "ok": true, "kind": "L", "d": "[(c!\"lineno\", .int 7), (c!\"bootProto\", .str c!\"dhcp\"), (c!\"dhcpclass\", .str c!\"\"), (c!\"device\", .str c!\"t\"), (c!\"essid\", .str c!\"\"), (c!\"ethtool\", .str c!\"\"), (c!\"gateway\", .str c!\"\"), (c!\"hostname\", .str c!\"\"), (c!\"ip\", .str c!\"\"), (c!\"mtu\", .str c!\"\"), (c!\"nameserver\", .str c!\"\"), (c!\"netmask\", .str c!\"\"), (c!\"nodns\", .bool false), (c!\"onboot\", .bool true), (c!\"wepkey\", .str c!\"\"), (c!\"notksdevice\", .bool false), (c!\"noipv4\", .bool false), (c!\"noipv6\", .bool false), (c!\"ipv6\", .str c!\"\"), (c!\"activate\", .none), (c!\"nodefroute\", .bool false), (c!\"wpakey\", .str c!\"\"), (c!\"bondslaves\", .str c!\"\"), (c!\"bondopts\", .str c!\"\"), (c!\"vlanid\", .str c!\"\"), (c!\"ipv6gateway\", .str c!\"\"), (c!\"teamslaves\", .list []), (c!\"teamconfig\", .str c!\"\"), (c!\"interfacename\", .str c!\"\"), (c!\"bridgeslaves\", .str c!\"\"), (c!\"bridgeopts\", .str c!\"\"), (c!\"bindto\", .none)]", "bsets": "[]", "rows": {"--teamslaves=a": "[(c!\"teamslaves\", .pairs [(c!\"a\", c!\"\")])]", "--bondslaves=a,b": "[(c!\"bondslaves\", .str c!\"a,b\")]", "--vlanid=5": "[(c!\"vlanid\", .str c!\"5\")]"}}, "600": {"cmd": "ostreesetup", "cls": "RHEL7_OSTreeSetup.cls", "vs": [19100], "base": "--osname=o --url=http://u --ref=r", "bi": 0, "lines": ["--osname=QX", "--remote=QX", "--url=QX", "--ref=QX", "--nogpg"], "ok": true, "kind": "P", "d": "[(c!\"osname\", .str c!\"o\"), (c!\"remote\", .str c!\"o\"), (c!\"url\", .str c!\"http://u\"), (c!\"ref\", .str c!\"r\"), (c!\"nogpg\", .bool false)]", "bsets": "[(c!\"osname\", .str c!\"o\"), (c!\"remote\", .str c!\"o\"), (c!\"url\", .str c!\"http://u\"), (c!\"ref\", .str c!\"r\")]", "rows": {"--osname=QX": "[(c!\"osname\", .str c!\"QX\"), (c!\"remote\", .str c!\"QX\")]", "--remote=QX": "[(c!\"remote\", .str c!\"QX\")]", "--url=QX": "REFUSED", "--ref=QX": "[(c!\"ref\", .str c!\"QX\")]", "--nogpg": "[(c!\"nogpg\", .bool true)]"}}, "601": {"cmd": "part", "cls": "RHEL7_Partition.cls RHEL7_PartData.cls", "vs": [19100], "base": "/x --size=1", "bi": 0, "lines": ["--active", "--asprimary", "--start=42", "--end=42", "--fstype=QX", "--type=QX", "--grow", "--maxsize=42", "--noformat", "--onbiosdisk=QX", "--ondisk=QX", "--ondrive=QX", "--onpart=QX", "--usepart=QX", "--recommended", "--size=42", "--fsoptions=QX", "--label=QX", "--bytes-per-inode=QX", "--fsprofile=QX", "--encrypted", "--passphrase=QX", "--start=QX", "--end=QX", "--escrowcert=QX", "--backuppassphrase", "--resize", "--hibernation", "--cipher=QX", "--mkfsoptions=QX", "--luks-version=QX", "--pbkdf=QX", "--pbkdf-memory=42", "--pbkdf-time=42", "--pbkdf-iterations=42", "--bytes-per-inode=42"], "ok": true, "kind": "L", "d": "[(c!\"lineno\", .int 7), (c!\"active\", .bool false), (c!\"primOnly\", .bool false), (c!\"fstype\", .str c!\"\"), (c!\"grow\", .bool false), (c!\"maxSizeMB\", .int 0), (c!\"format\", .bool true), (c!\"onbiosdisk\", .str c!\"\"), (c!\"disk\", .str c!\"\"), (c!\"onPart\", .str c!\"\"), (c!\"recommended\", .bool false), (c!\"size\", .int 1), (c!\"mountpoint\", .str c!\"/x\"), (c!\"fsopts\", .str c!\"\"), (c!\"label\", .str c!\"\"), (c!\"fsprofile\", .str c!\"\"), (c!\"encrypted\", .bool false), (c!\"passphrase\", .str c!\"\"), (c!\"escrowcert\", .str c!\"\"), (c!\"backuppassphrase\", .bool false), (c!\"resize\", .bool false), (c!\"hibernation\", .bool false), (c!\"cipher\", .str c!\"\"), (c!\"mkfsopts\", .str c!\"\"), (c!\"mntpoint\", .list [c!\"/x\"])]", "bsets": "[]", "rows": {"--active": "[(c!\"active\", .bool true)]", "--asprimary": "[(c!\"primOnly\", .bool true)]", "--start=42": "REFUSED", "--end=42": "REFUSED", "--fstype=QX": "[(c!\"fstype\", .str c!\"QX\")]", "--type=QX": "[(c!\"fstype\", .str c!\"QX\")]", "--grow": "[(c!\"grow\", .bool true)]", "--maxsize=42": "[(c!\"maxSizeMB\", .int 42)]", "--noformat": "[(c!\"format\", .bool false)]", "--onbiosdisk=QX": "[(c!\"onbiosdisk\", .str c!\"QX\")]", "--ondisk=QX": "[(c!\"disk\", .str c!\"QX\")]", "--ondrive=QX": "[(c!\"disk\", .str c!\"QX\")]", "--onpart=QX": "[(c!\"onPart\", .str c!\"QX\")]", "--usepart=QX": "[(c!\"onPart\", .str c!\"QX\")]", "--recommended": "[(c!\"recommended\", .bool true)]", "--size=42": "[(c!\"size\", .int 42)]", "--fsoptions=QX": "[(c!\"fsopts\", .str c!\"QX\")]", "--label=QX": "[(c!\"label\", .str c!\"QX\")]", "--bytes-per-inode=QX": "REFUSED", "--fsprofile=QX": "[(c!\"fsprofile\", .str c!\"QX\")]", "--encrypted": "[(c!\"encrypted\", .bool true)]", "--passphrase=QX": "[(c!\"passphrase\", .str c!\"QX\")]", "--start=QX": "REFUSED", "--end=QX": "REFUSED", "--escrowcert=QX": "[(c!\"escrowcert\", .str c!\"QX\")]", "--backuppassphrase": "[(c!\"backuppassphrase\", .bool true)]", "--resize": "REFUSED", "--hibernation": "[(c!\"hibernation\", .bool true)]", "--cipher=QX": "[(c!\"cipher\", .str c!\"QX\")]", "--mkfsoptions=QX": "[(c!\"mkfsopts\", .str c!\"QX\")]", "--luks-version=QX": "REFUSED", "--pbkdf=QX": "REFUSED", "--pbkdf-memory=42": "REFUSED", "--pbkdf-time=42": "REFUSED", "--pbkdf-iterations=42": "REFUSED", "--bytes-per-inode=42": "REFUSED"}}, "602": {"cmd": "part", "cls": "RHEL7_Partition.cls RHEL7_PartData.cls", "vs": [19100], "base": "/x --onpart=sda1 --size=1", "bi": 1, "lines": ["--resize", "--noformat"], "ok": true, "kind": "L", "d": "[(c!\"lineno\", .int 7), (c!\"active\", .bool false), (c!\"primOnly\", .bool false), (c!\"fstype\", .str c!\"\"), (c!\"grow\", .bool false), (c!\"maxSizeMB\", .int 0), (c!\"format\", .bool true), (c!\"onbiosdisk\", .str c!\"\"), (c!\"disk\", .str c!\"\"), (c!\"onPart\", .str c!\"sda1\"), (c!\"recommended\", .bool false), (c!\"size\", .int 1), (c!\"mountpoint\", .str c!\"/x\"), (c!\"fsopts\", .str c!\"\"), (c!\"label\", .str c!\"\"), (c!\"fsprofile\", .str c!\"\"), (c!\"encrypted\", .bool false), (c!\"passphrase\", .str c!\"\"), (c!\"escrowcert\", .str c!\"\"), (c!\"backuppassphrase\", .bool false), (c!\"resize\", .bool false), (c!\"hibernation\", .bool false), (c!\"cipher\", .str c!\"\"), (c!\"mkfsopts\", .str c!\"\"), (c!\"mntpoint\", .list [c!\"/x\"])]", "bsets": "[]", "rows": {"--resize": "[(c!\"resize\", .bool true)]", "--noformat": "[(c!\"format\", .bool false)]"}}, "603": {"cmd": "partition", "cls": "RHEL7_Partition.cls RHEL7_PartData.cls", "vs": [19100], "base": "/x --size=1", "bi": 0, "lines": ["--active", "--asprimary", "--start=42", "--end=42", "--fstype=QX", "--type=QX", "--grow", "--maxsize=42", "--noformat", "--onbiosdisk=QX", "--ondisk=QX", "--ondrive=QX", "--onpart=QX", "--usepart=QX", "--recommended", "--size=42", "--fsoptions=QX", "--label=QX", "--bytes-per-inode=QX", "--fsprofile=QX", "--encrypted", "--passphrase=QX", "--start=QX", "--end=QX", "--escrowcert=QX", "--backuppassphrase", "--resize", "--hibernation", "--cipher=QX", "--mkfsoptions=QX", "--luks-version=QX", "--pbkdf=QX", "--pbkdf-memory=42", "--pbkdf-time=42", "--pbkdf-iterations=42", "--bytes-per-inode=42"], "ok": true, "kind": "L", "d": "[(c!\"lineno\", .int 7), (c!\"active\", .bool false), (c!\"primOnly\", .bool false), (c!\"fstype\", .str c!\"\"), (c!\"grow\", .bool false), (c!\"maxSizeMB\", .int 0), (c!\"format\", .bool true), (c!\"onbiosdisk\", .str c!\"\"), (c!\"disk\", .str c!\"\"), (c!\"onPart\", .str c!\"\"), (c!\"recommended\", .bool false), (c!\"size\", .int 1), (c!\"mountpoint\", .str c!\"/x\"), (c!\"fsopts\", .str c!\"\"), (c!\"label\", .str c!\"\"), (c!\"fsprofile\", .str c!\"\"), (c!\"encrypted\", .bool false), (c!\"passphrase\", .str c!\"\"), (c!\"escrowcert\", .str c!\"\"), (c!\"backuppassphrase\", .bool false), (c!\"resize\", .bool false), (c!\"hibernation\", .bool false), (c!\"cipher\", .str c!\"\"), (c!\"mkfsopts\", .str c!\"\"), (c!\"mntpoint\", .list [c!\"/x\"])]", "bsets": "[]", "rows": {"--active": "[(c!\"active\", .bool true)]", "--asprimary": "[(c!\"primOnly\", .bool true)]", "--start=42": "REFUSED", "--end=42": "REFUSED", "--fstype=QX": "[(c!\"fstype\", .str c!\"QX\")]", "--type=QX": "[(c!\"fstype\", .str c!\"QX\")]", "--grow": "[(c!\"grow\", .bool true)]", "--maxsize=42": "[(c!\"maxSizeMB\", .int 42)]", "--noformat": "[(c!\"format\", .bool false)]", "--onbiosdisk=QX": "[(c!\"onbiosdisk\", .str c!\"QX\")]", "--ondisk=QX": "[(c!\"disk\", .str c!\"QX\")]", "--ondrive=QX": "[(c!\"disk\", .str c!\"QX\")]", "--onpart=QX": "[(c!\"onPart\", .str c!\"QX\")]", "--usepart=QX": "[(c!\"onPart\", .str c!\"QX\")]", "--recommended": "[(c!\"recommended\", .bool true)]", "--size=42": "[(c!\"size\", .int 42)]", "--fsoptions=QX": "[(c!\"fsopts\", .str c!\"QX\")]", "--label=QX": "[(c!\"label\", .str c!\"QX\")]", "--bytes-per-inode=QX": "REFUSED", "--fsprofile=QX": "[(c!\"fsprofile\", .str c!\"QX\")]", "--encrypted": "[(c!\"encrypted\", .bool true)]", "--passphrase=QX": "[(c!\"passphrase\", .str c!\"QX\")]", "--start=QX": "REFUSED", "--end=QX": "REFUSED", "--escrowcert=QX": "[(c!\"escrowcert\", .str c!\"QX\")]", "--backuppassphrase": "[(c!\"backuppassphrase\", .bool true)]", "--resize": "REFUSED", "--hibernation": "[(c!\"hibernation\", .bool true)]", "--cipher=QX": "[(c!\"cipher\", .str c!\"QX\")]", "--mkfsoptions=QX": "[(c!\"mkfsopts\", .str c!\"QX\")]", "--luks-version=QX": "REFUSED", "--pbkdf=QX": "REFUSED", "--pbkdf-memory=42": "REFUSED", "--pbkdf-time=42": "REFUSED", "--pbkdf-iterations=42": "REFUSED", "--bytes-per-inode=42": "REFUSED"}}, "604": {"cmd": "partition", "cls": "RHEL7_Partition.cls RHEL7_PartData.cls", "vs": [19100], "base": "/x --onpart=sda1 --size=1", "bi": 1, "lines": ["--resize", "--noformat"], "ok": true, "kind": "L", "d": "[(c!\"lineno\", .int 7), (c!\"active\", .bool false), (c!\"primOnly\", .bool false), (c!\"fstype\", .str c!\"\"), (c!\"grow\", .bool false), (c!\"maxSizeMB\", .int 0), (c!\"format\", .bool true), (c!\"onbiosdisk\", .str c!\"\"), (c!\"disk\", .str c!\"\"), (c!\"onPart\", .str c!\"sda1\"), (c!\"recommended\", .bool false), (c!\"size\", .int 1), (c!\"mountpoint\", .str c!\"/x\"), (c!\"fsopts\", .str c!\"\"), (c!\"label\", .str c!\"\"), (c!\"fsprofile\", .str c!\"\"), (c!\"encrypted\", .bool false), (c!\"passphrase\", .str c!\"\"), (c!\"escrowcert\", .str c!\"\"), (c!\"backuppassphrase\", .bool false), (c!\"resize\", .bool false), (c!\"hibernation\", .bool false), (c!\"cipher\", .str c!\"\"), (c!\"mkfsopts\", .str c!\"\"), (c!\"mntpoint\", .list [c!\"/x\"])]", "bsets": "[]", "rows": {"--resize": "[(c!\"resize\", .bool true)]", "--noformat": "[(c!\"format\", .bool false)]"}}, "605": {"cmd": "raid", "cls": "RHEL7_Raid.cls RHEL7_RaidData.cls", "vs": [19100], "base": "/x --device=1 --level=RAID1 raid.1 raid.2", "bi": 0, "lines": ["--device=QX", "--fstype=QX", "--level=RAID0", "--level=0", "--level=RAID1", "--level=1", "--level=RAID5", "--level=5", "--level=RAID6", "--level=6", "--level=RAID10", "--level=10", "--noformat", "--spares=42", "--useexisting", "--fsoptions=QX", "--bytes-per-inode=QX", "--fsprofile=QX", "--encrypted", "--passphrase=QX", "--escrowcert=QX", "--backuppassphrase", "--level=RAID4", "--level=4", "--label=QX", "--cipher=QX", "--mkfsoptions=QX", "--chunksize=42", "--luks-version=QX", "--pbkdf=QX", "--pbkdf-memory=42", "--pbkdf-time=42", "--pbkdf-iterations=42", "--bytes-per-inode=42"], "ok": true, "kind": "L", "d": "[(c!\"lineno\", .int 7), (c!\"device\", .str c!\"1\"), (c!\"fstype\", .str c!\"\"), (c!\"level\", .str c!\"RAID1\"), (c!\"format\", .bool true), (c!\"spares\", .int 0), (c!\"preexist\", .bool false), (c!\"mountpoint\", .str c!\"/x\"), (c!\"members\", .list [c!\"raid.1\", c!\"raid.2\"]), (c!\"fsopts\", .str c!\"\"), (c!\"fsprofile\", .str c!\"\"), (c!\"encrypted\", .bool false), (c!\"passphrase\", .str c!\"\"), (c!\"escrowcert\", .str c!\"\"), (c!\"backuppassphrase\", .bool false), (c!\"label\", .str c!\"\"), (c!\"cipher\", .str c!\"\"), (c!\"mkfsopts\", .str c!\"\"), (c!\"chunk_size\", .none), (c!\"mntpoint\", .list [c!\"/x\"]), (c!\"partitions\", .list [c!\"raid.1\", c!\"raid.2\"])]", "bsets": "[]", "rows": {"--device=QX": "[(c!\"device\", .str c!\"QX\")]", "--fstype=QX": "[(c!\"fstype\", .str c!\"QX\")]", "--level=RAID0": "[(c!\"level\", .str c!\"RAID0\")]", "--level=0": "[(c!\"level\", .str c!\"RAID0\")]", "--level=RAID1": "[]", "--level=1": "[]", "--level=RAID5": "[(c!\"level\", .str c!\"RAID5\")]", "--level=5": "[(c!\"level\", .str c!\"RAID5\")]", "--level=RAID6": "[(c!\"level\", .str c!\"RAID6\")]", "--level=6": "[(c!\"level\", .str c!\"RAID6\")]", "--level=RAID10": "[(c!\"level\", .str c!\"RAID10\")]", "--level=10": "[(c!\"level\", .str c!\"RAID10\")]", "--noformat": "REFUSED", "--spares=42": "[(c!\"spares\", .int 42)]", "--useexisting": "REFUSED", "--fsoptions=QX": "[(c!\"fsopts\", .str c!\"QX\")]", "--bytes-per-inode=QX": "REFUSED", "--fsprofile=QX": "[(c!\"fsprofile\", .str c!\"QX\")]", "--encrypted": "[(c!\"encrypted\", .bool true)]", "--passphrase=QX": "[(c!\"passphrase\", .str c!\"QX\")]", "--escrowcert=QX": "[(c!\"escrowcert\", .str c!\"QX\")]", "--backuppassphrase": "[(c!\"backuppassphrase\", .bool true)]", "--level=RAID4": "[(c!\"level\", .str c!\"RAID4\")]", "--level=4": "[(c!\"level\", .str c!\"RAID4\")]", "--label=QX": "[(c!\"label\", .str c!\"QX\")]", "--cipher=QX": "[(c!\"cipher\", .str c!\"QX\")]", "--mkfsoptions=QX": "[(c!\"mkfsopts\", .str c!\"QX\")]", "--chunksize=42": "[(c!\"chunk_size\", .int 42)]", "--luks-version=QX": "REFUSED", "--pbkdf=QX": "REFUSED", "--pbkdf-memory=42": "REFUSED", "--pbkdf-time=42": "REFUSED", "--pbkdf-iterations=42": "REFUSED", "--bytes-per-inode=42": "REFUSED"}}, "606": {"cmd": "raid", "cls": "RHEL7_Raid.cls RHEL7_RaidData.cls", "vs": [19100], "base": "/x --device=1 --noformat", "bi": 1, "lines": ["--fstype=ext4", "--label=QX"], "ok": true, "kind": "L", "d": "[(c!\"lineno\", .int 7), (c!\"device\", .str c!\"1\"), (c!\"fstype\", .str c!\"\"), (c!\"level\", .str c!\"\"), (c!\"format\", .bool false), (c!\"spares\", .int 0), (c!\"preexist\", .bool true), (c!\"mountpoint\", .str c!\"/x\"), (c!\"members\", .list []), (c!\"fsopts\", .str c!\"\"), (c!\"fsprofile\", .str c!\"\"), (c!\"encrypted\", .bool false), (c!\"passphrase\", .str c!\"\"), (c!\"escrowcert\", .str c!\"\"), (c!\"backuppassphrase\", .bool false), (c!\"label\", .str c!\"\"), (c!\"cipher\", .str c!\"\"), (c!\"mkfsopts\", .str c!\"\"), (c!\"chunk_size\", .none), (c!\"mntpoint\", .list [c!\"/x\"]), (c!\"partitions\", .list [])]", "bsets": "[]", "rows": {"--fstype=ext4": "[(c!\"fstype\", .str c!\"ext4\")]", "--label=QX": "[(c!\"label\", .str c!\"QX\")]"}}, "607": {"cmd": "raid", "cls": "RHEL7_Raid.cls RHEL7_RaidData.cls", "vs": [19100], "base": "/x --device=1 --useexisting", "bi": 2, "lines": ["--fstype=ext4", "--label=QX"], "ok": true, "kind": "L", "d": "[(c!\"lineno\", .int 7), (c!\"device\", .str c!\"1\"), (c!\"fstype\", .str c!\"\"), (c!\"level\", .str c!\"\"), (c!\"format\", .bool true), (c!\"spares\", .int 0), (c!\"preexist\", .bool true), (c!\"mountpoint\", .str c!\"/x\"), (c!\"members\", .list []), (c!\"fsopts\", .str c!\"\"), (c!\"fsprofile\", .str c!\"\"), (c!\"encrypted\", .bool false), (c!\"passphrase\", .str c!\"\"), (c!\"escrowcert\", .str c!\"\"), (c!\"backuppassphrase\", .bool false), (c!\"label\", .str c!\"\"), (c!\"cipher\", .str c!\"\"), (c!\"mkfsopts\", .str c!\"\"), (c!\"chunk_size\", .none), (c!\"mntpoint\", .list [c!\"/x\"]), (c!\"partitions\", .list [])]", "bsets": "[]", "rows": {"--fstype=ext4": "[(c!\"fstype\", .str c!\"ext4\")]", "--label=QX": "[(c!\"label\", .str c!\"QX\")]"}}, "608": {"cmd": "raid", "cls": "RHEL7_Raid.cls RHEL7_RaidData.cls", "vs": [19100], "base": "/x --device=1 --level=RAID1 raid.1 raid.2 raid.3", "bi": 3, "lines": ["--device=md7", "--device=data", "--level=0", "--level=RAID5", "--level=raid6", "--level=10", "--level=linear", "--spares=1", "--spares=2"], "ok": true, "kind": "L", "d": "[(c!\"lineno\", .int 7), (c!\"device\", .str c!\"1\"), (c!\"fstype\", .str c!\"\"), (c!\"level\", .str c!\"RAID1\"), (c!\"format\", .bool true), (c!\"spares\", .int 0), (c!\"preexist\", .bool false), (c!\"mountpoint\", .str c!\"/x\"), (c!\"members\", .list [c!\"raid.1\", c!\"raid.2\", c!\"raid.3\"]), (c!\"fsopts\", .str c!\"\"), (c!\"fsprofile\", .str c!\"\"), (c!\"encrypted\", .bool false), (c!\"passphrase\", .str c!\"\"), (c!\"escrowcert\", .str c!\"\"), (c!\"backuppassphrase\", .bool false), (c!\"label\", .str c!\"\"), (c!\"cipher\", .str c!\"\"), (c!\"mkfsopts\", .str c!\"\"), (c!\"chunk_size\", .none), (c!\"mntpoint\", .list [c!\"/x\"]), (c!\"partitions\", .list [c!\"raid.1\", c!\"raid.2\", c!\"raid.3\"])]", "bsets": "[]", "rows": {"--device=md7": "[(c!\"device\", .str c!\"7\")]", "--device=data": "[(c!\"device\", .str c!\"data\")]", "--level=0": "[(c!\"level\", .str c!\"RAID0\")]", "--level=RAID5": "[(c!\"level\", .str c!\"RAID5\")]", "--level=raid6": "[(c!\"level\", .str c!\"RAID6\")]", "--level=10": "[(c!\"level\", .str c!\"RAID10\")]", "--level=linear": "REFUSED", "--spares=1": "[(c!\"spares\", .int 1)]", "--spares=2": "[(c!\"spares\", .int 2)]"}}, "609": {"cmd": "repo", "cls": "RHEL7_Repo.cls RHEL7_RepoData.cls", "vs": [19100], "base": "--name=r --baseurl=b", "bi": 0, "lines": ["--name=QX", "--baseurl=QX", "--mirrorlist=QX", "--cost=42", "--excludepkgs=QX", "--includepkgs=QX", "--ignoregroups=yes", "--ignoregroups=off", "--proxy=QX", "--noverifyssl", "--install", "--metalink=QX", "--sslcacert=QX", "--sslclientcert=QX", "--sslclientkey=QX"], "ok": true, "kind": "L", "d": "[(c!\"lineno\", .int 7), (c!\"baseurl\", .str c!\"b\"), (c!\"mirrorlist\", .none), (c!\"name\", .str c!\"r\"), (c!\"cost\", .none), (c!\"includepkgs\", .list []), (c!\"excludepkgs\", .list []), (c!\"ignoregroups\", .none), (c!\"proxy\", .str c!\"\"), (c!\"noverifyssl\", .bool false), (c!\"install\", .bool false)]", "bsets": "[]", "rows": {"--name=QX": "[(c!\"name\", .str c!\"QX\")]", "--baseurl=QX": "[(c!\"baseurl\", .str c!\"QX\")]", "--mirrorlist=QX": "REFUSED", "--cost=42": "[(c!\"cost\", .int 42)]", "--excludepkgs=QX": "[(c!\"excludepkgs\", .list [c!\"QX\"])]", "--includepkgs=QX": "[(c!\"includepkgs\", .list [c!\"QX\"])]", "--ignoregroups=yes": "[(c!\"ignoregroups\", .bool true)]", "--ignoregroups=off": "[(c!\"ignoregroups\", .bool false)]", "--proxy=QX": "[(c!\"proxy\", .str c!\"QX\")]", "--noverifyssl": "[(c!\"noverifyssl\", .bool true)]", "--install": "[(c!\"install\", .bool true)]", "--metalink=QX": "REFUSED", "--sslcacert=QX": "REFUSED", "--sslclientcert=QX": "REFUSED", "--sslclientkey=QX": "REFUSED"}}, "610": {"cmd": "repo", "cls": "RHEL7_Repo.cls RHEL7_RepoData.cls", "vs": [19100], "base": "--name=r --mirrorlist=m", "bi": 1, "lines": ["--baseurl=QX", "--metalink=QX"], "ok": true, "kind": "L", "d": "[(c!\"lineno\", .int 7), (c!\"baseurl\", .str c!\"\"), (c!\"mirrorlist\", .str c!\"m\"), (c!\"name\", .str c!\"r\"), (c!\"cost\", .none), (c!\"includepkgs\", .list []), (c!\"excludepkgs\", .list []), (c!\"ignoregroups\", .none), (c!\"proxy\", .str c!\"\"), (c!\"noverifyssl\", .bool false), (c!\"install\", .bool false)]", "bsets": "[]", "rows": {"--baseurl=QX": "REFUSED", "--metalink=QX": "REFUSED"}}, "611": {"cmd": "repo", "cls": "RHEL7_Repo.cls RHEL7_RepoData.cls", "vs": [19100], "base": "--name=r --metalink=m", "bi": 2, "lines": ["--mirrorlist=QX"], "ok": false}, "612": {"cmd": "reqpart", "cls": "RHEL7_ReqPart.cls", "vs": [19100], "base": "", "bi": 0, "lines": ["--add-boot"], "ok": true, "kind": "P", "d": "[(c!\"reqpart\", .bool true), (c!\"addBoot\", .bool false)]", "bsets": "[(c!\"reqpart\", .bool true)]", "rows": {"--add-boot": "[(c!\"addBoot\", .bool true)]"}}, "613": {"cmd": "timezone", "cls": "RHEL7_Timezone.cls", "vs": [19100], "base": "T", "bi": 0, "lines": ["--utc", "--isUtc", "--nontp", "--ntpservers=QX"], "ok": true, "kind": "P", "d": "[(c!\"isUtc\", .bool false), (c!\"timezone\", .str c!\"T\"), (c!\"nontp\", .bool false), (c!\"ntpservers\", .list [])]", "bsets": "[(c!\"timezone\", .str c!\"T\")]", "rows": {"--utc": "[(c!\"isUtc\", .bool true)]", "--isUtc": "[(c!\"isUtc\", .bool true)]", "--nontp": "[(c!\"nontp\", .bool true)]", "--ntpservers=QX": "[(c!\"ntpservers\", .list [c!\"QX\"])]"}}, "614": {"cmd": "timezone", "cls": "RHEL7_Timezone.cls", "vs": [19100], "base": "--utc T", "bi": 1, "lines": ["--ntpservers=QX", "--nontp"], "ok": true, "kind": "P", "d": "[(c!\"isUtc\", .bool true), (c!\"timezone\", .str c!\"T\"), (c!\"nontp\", .bool false), (c!\"ntpservers\", .list [])]", "bsets": "[(c!\"isUtc\", .bool true), (c!\"timezone\", .str c!\"T\")]", "rows": {"--ntpservers=QX": "[(c!\"ntpservers\", .list [c!\"QX\"])]", "--nontp": "[(c!\"nontp\", .bool true)]"}}, "615": {"cmd": "volgroup", "cls": "RHEL7_VolGroup.cls RHEL7_VolGroupData.cls", "vs": [19100], "base": "g pv.1", "bi": 0, "lines": ["--noformat", "--pesize=42", "--useexisting", "--reserved-space=42", "--reserved-percent=42"], "ok": true, "kind": "L", "d": "[(c!\"lineno\", .int 7), (c!\"format\", .bool true), (c!\"pesize\", .int 0), (c!\"preexist\", .bool false), (c!\"vgname\", .str c!\"g\"), (c!\"physvols\", .list [c!\"pv.1\"]), (c!\"reserved_space\", .none), (c!\"reserved_percent\", .none), (c!\"name\", .list [c!\"g\"]), (c!\"partitions\", .list [c!\"pv.1\"])]", "bsets": "[]", "rows": {"--noformat": "REFUSED", "--pesize=42": "[(c!\"pesize\", .int 42)]", "--useexisting": "REFUSED", "--reserved-space=42": "[(c!\"reserved_space\", .int 42)]", "--reserved-percent=42": "[(c!\"reserved_percent\", .int 42)]"}}, "616": {"cmd": "volgroup", "cls": "RHEL7_VolGroup.cls RHEL7_VolGroupData.cls", "vs": [19100], "base": "g --noformat", "bi": 1, "lines": [], "ok": true, "kind": "L", "d": "[(c!\"lineno\", .int 7), (c!\"format\", .bool false), (c!\"pesize\", .int 0), (c!\"preexist\", .bool true), (c!\"vgname\", .str c!\"g\"), (c!\"physvols\", .list []), (c!\"reserved_space\", .none), (c!\"reserved_percent\", .none), (c!\"name\", .list [c!\"g\"]), (c!\"partitions\", .list [])]", "bsets": "[]", "rows": {}}, "617": {"cmd": "volgroup", "cls": "RHEL7_VolGroup.cls RHEL7_VolGroupData.cls", "vs": [19100], "base": "g --useexisting", "bi": 2, "lines": ["--noformat"], "ok": true, "kind": "L", "d": "[(c!\"lineno\", .int 7), (c!\"format\", .bool true), (c!\"pesize\", .int 0), (c!\"preexist\", .bool true), (c!\"vgname\", .str c!\"g\"), (c!\"physvols\", .list []), (c!\"reserved_space\", .none), (c!\"reserved_percent\", .none), (c!\"name\", .list [c!\"g\"]), (c!\"partitions\", .list [])]", "bsets": "[]", "rows": {"--noformat": "[(c!\"format\", .bool false)]"}}, "618": {"cmd": "autopart", "cls": "RHEL8_AutoPart.cls", "vs": [26100], "base": "", "bi": 0, "lines": ["--encrypted", "--passphrase=QX", "--escrowcert=QX", "--backuppassphrase", "--nolvm", "--type=lvm", "--type=btrfs", "--type=plain", "--type=partition", "--cipher=QX", "--type=thinp", "--fstype=QX", "--nohome", "--noboot", "--noswap", "--luks-version=QX", "--pbkdf=QX", "--pbkdf-memory=42", "--pbkdf-time=42", "--pbkdf-iterations=42"], "ok": true, "kind": "P", "d": "[(c!\"autopart\", .bool true), (c!\"encrypted\", .bool false), (c!\"passphrase\", .str c!\"\"), (c!\"escrowcert\", .str c!\"\"), (c!\"backuppassphrase\", .bool false), (c!\"lvm\", .bool true), (c!\"type\", .none), (c!\"cipher\", .str c!\"\"), (c!\"fstype\", .str c!\"\"), (c!\"nohome\", .bool false), (c!\"noboot\", .bool false), (c!\"noswap\", .bool false), (c!\"luks_version\", .str c!\"\"), (c!\"pbkdf\", .str c!\"\"), (c!\"pbkdf_memory\", .int 0), (c!\"pbkdf_time\", .int 0), (c!\"pbkdf_iterations\", .int 0)]", "bsets": "[(c!\"autopart\", .bool true)]", "rows": {"--encrypted": "[(c!\"encrypted\", .bool true)]", "--passphrase=QX": "[(c!\"passphrase\", .str c!\"QX\")]", "--escrowcert=QX": "[(c!\"escrowcert\", .str c!\"QX\")]", "--backuppassphrase": "[(c!\"backuppassphrase\", .bool true)]", "--nolvm": "[(c!\"type\", .int 0)]", "--type=lvm": "[(c!\"type\", .int 2)]", "--type=btrfs": "REFUSED", "--type=plain": "[(c!\"type\", .int 0)]", "--type=partition": "[(c!\"type\", .int 0)]", "--cipher=QX": "[(c!\"cipher\", .str c!\"QX\")]", "--type=thinp": "[(c!\"type\", .int 3)]", "--fstype=QX": "[(c!\"fstype\", .str c!\"QX\")]", "--nohome": "[(c!\"nohome\", .bool true)]", "--noboot": "[(c!\"noboot\", .bool true)]", "--noswap": "[(c!\"noswap\", .bool true)]", "--luks-version=QX": "[(c!\"luks_version\", .str c!\"QX\")]", "--pbkdf=QX": "[(c!\"pbkdf\", .str c!\"QX\")]", "--pbkdf-memory=42": "[(c!\"pbkdf_memory\", .int 42)]", "--pbkdf-time=42": "[(c!\"pbkdf_time\", .int 42)]", "--pbkdf-iterations=42": "[(c!\"pbkdf_iterations\", .int 42)]"}}, "619": {"cmd": "bootloader", "cls": "RHEL8_Bootloader.cls", "vs": [26100], "base": "", "bi": 0, "lines": ["--append=QX", "--location=mbr", "--location=partition", "--location=none", "--location=boot", "--lba32", "--password=QX", "--md5pass=QX", "--upgrade", "--driveorder=QX", "--timeout=42", "--default=QX", "--iscrypted", "--boot-drive=QX", "--leavebootorder", "--extlinux", "--disabled", "--nombr", "--linear", "--nolinear", "--useLilo", "--hvargs=QX"], "ok": true, "kind": "P", "d": "[(c!\"driveorder\", .list []), (c!\"appendLine\", .str c!\"\"), (c!\"location\", .str c!\"mbr\"), (c!\"md5pass\", .str c!\"\"), (c!\"password\", .str c!\"\"), (c!\"upgrade\", .bool false), (c!\"timeout\", .none), (c!\"default\", .str c!\"\"), (c!\"isCrypted\", .bool false), (c!\"bootDrive\", .str c!\"\"), (c!\"leavebootorder\", .bool false), (c!\"extlinux\", .bool false), (c!\"disabled\", .bool false), (c!\"nombr\", .bool false)]", "bsets": "[(c!\"location\", .str c!\"mbr\")]", "rows": {"--append=QX": "[(c!\"appendLine\", .str c!\"QX\")]", "--location=mbr": "[]", "--location=partition": "[(c!\"location\", .str c!\"partition\")]", "--location=none": "[(c!\"location\", .str c!\"none\")]", "--location=boot": "[(c!\"location\", .str c!\"boot\")]", "--lba32": "REFUSED", "--password=QX": "[(c!\"password\", .str c!\"QX\")]", "--md5pass=QX": "[(c!\"password\", .str c!\"QX\"), (c!\"isCrypted\", .bool true)]", "--upgrade": "[(c!\"upgrade\", .bool true)]", "--driveorder=QX": "[(c!\"driveorder\", .list [c!\"QX\"])]", "--timeout=42": "[(c!\"timeout\", .int 42)]", "--default=QX": "[(c!\"default\", .str c!\"QX\")]", "--iscrypted": "[(c!\"isCrypted\", .bool true)]", "--boot-drive=QX": "[(c!\"bootDrive\", .str c!\"QX\")]", "--leavebootorder": "[(c!\"leavebootorder\", .bool true)]", "--extlinux": "[(c!\"extlinux\", .bool true)]", "--disabled": "[(c!\"disabled\", .bool true)]", "--nombr": "[(c!\"nombr\", .bool true)]", "--linear": "REFUSED", "--nolinear": "REFUSED", "--useLilo": "REFUSED", "--hvargs=QX": "REFUSED"}}, "620": {"cmd": "module", "cls": "RHEL8_Module.cls RHEL8_ModuleData.cls", "vs": [26100], "base": "--name=m", "bi": 0, "lines": ["--name=QX", "--stream=QX", "--disable"], "ok": true, "kind": "L", "d": "[(c!\"lineno\", .int 7), (c!\"name\", .str c!\"m\"), (c!\"stream\", .str c!\"\"), (c!\"enable\", .bool true)]", "bsets": "[]", "rows": {"--name=QX": "[(c!\"name\", .str c!\"QX\")]", "--stream=QX": "[(c!\"stream\", .str c!\"QX\")]", "--disable": "[(c!\"enable\", .bool false)]"}}, "621": {"cmd": "fcoe", "cls": "RHEL8_Fcoe.cls RHEL8_FcoeData.cls", "vs": [26100], "base": "--nic=n", "bi": 0, "lines": ["--nic=QX", "--dcb", "--autovlan"], "ok": true, "kind": "L", "d": "[(c!\"lineno\", .int 7), (c!\"nic\", .str c!\"n\"), (c!\"dcb\", .bool false), (c!\"autovlan\", .bool false)]", "bsets": "[]", "rows": {"--nic=QX": "[(c!\"nic\", .str c!\"QX\")]", "--dcb": "[(c!\"dcb\", .bool true)]", "--autovlan": "[(c!\"autovlan\", .bool true)]"}}, "622": {"cmd": "logvol", "cls": "RHEL8_LogVol.cls RHEL8_LogVolData.cls", "vs": [26100], "base": "/x --name=n --vgname=g --size=1", "bi": 0, "lines": ["--fstype=QX", "--grow", "--maxsize=42", "--name=QX", "--noformat", "--percent=42", "--recommended", "--size=42", "--useexisting", "--vgname=QX", "--fsoptions=QX", "--bytes-per-inode=QX", "--fsprofile=QX", "--encrypted", "--passphrase=QX", "--escrowcert=QX", "--backuppassphrase", "--label=QX", "--resize", "--hibernation", "--cipher=QX", "--thinpool", "--thin", "--poolname=QX", "--chunksize=42", "--metadatasize=42", "--profile=QX", "--cachesize=42", "--cachemode=QX", "--cachepvs=QX", "--mkfsoptions=QX", "--luks-version=QX", "--pbkdf=QX", "--pbkdf-memory=42", "--pbkdf-time=42", "--pbkdf-iterations=42", "--bytes-per-inode=42"], "ok": true, "kind": "L", "d": "[(c!\"lineno\", .int 7), (c!\"fstype\", .str c!\"\"), (c!\"grow\", .bool false), (c!\"maxSizeMB\", .int 0), (c!\"name\", .str c!\"n\"), (c!\"format\", .bool true), (c!\"percent\", .int 0), (c!\"recommended\", .bool false), (c!\"size\", .int 1), (c!\"preexist\", .bool false), (c!\"vgname\", .str c!\"g\"), (c!\"mountpoint\", .str c!\"/x\"), (c!\"fsopts\", .str c!\"\"), (c!\"fsprofile\", .str c!\"\"), (c!\"encrypted\", .bool false), (c!\"passphrase\", .str c!\"\"), (c!\"escrowcert\", .str c!\"\"), (c!\"backuppassphrase\", .bool false), (c!\"label\", .str c!\"\"), (c!\"resize\", .bool false), (c!\"hibernation\", .bool false), (c!\"cipher\", .str c!\"\"), (c!\"thin_pool\", .bool false), (c!\"thin_volume\", .bool false), (c!\"pool_name\", .str c!\"\"), (c!\"chunk_size\", .none), (c!\"metadata_size\", .none), (c!\"profile\", .str c!\"\"), (c!\"cache_size\", .int 0), (c!\"cache_mode\", .str c!\"\"), (c!\"cache_pvs\", .list []), (c!\"mkfsopts\", .str c!\"\"), (c!\"luks_version\", .str c!\"\"), (c!\"pbkdf\", .str c!\"\"), (c!\"pbkdf_memory\", .int 0), (c!\"pbkdf_time\", .int 0), (c!\"pbkdf_iterations\", .int 0), (c!\"mntpoint\", .list [c!\"/x\"])]", "bsets": "[]", "rows": {"--fstype=QX": "[(c!\"fstype\", .str c!\"QX\")]", "--grow": "[(c!\"grow\", .bool true)]", "--maxsize=42": "[(c!\"maxSizeMB\", .int 42)]", "--name=QX": "[(c!\"name\", .str c!\"QX\")]", "--noformat": "[(c!\"format\", .bool false), (c!\"preexist\", .bool true)]", "--percent=42": "REFUSED", "--recommended": "[(c!\"recommended\", .bool true)]", "--size=42": "[(c!\"size\", .int 42)]", "--useexisting": "[(c!\"preexist\", .bool true)]", "--vgname=QX": "[(c!\"vgname\", .str c!\"QX\")]", "--fsoptions=QX": "[(c!\"fsopts\", .str c!\"QX\")]", "--bytes-per-inode=QX": "REFUSED", "--fsprofile=QX": "[(c!\"fsprofile\", .str c!\"QX\")]", "--encrypted": "[(c!\"encrypted\", .bool true)]", "--passphrase=QX": "[(c!\"passphrase\", .str c!\"QX\")]", "--escrowcert=QX": "[(c!\"escrowcert\", .str c!\"QX\")]", "--backuppassphrase": "[(c!\"backuppassphrase\", .bool true)]", "--label=QX": "[(c!\"label\", .str c!\"QX\")]", "--resize": "REFUSED", "--hibernation": "[(c!\"hibernation\", .bool true)]", "--cipher=QX": "[(c!\"cipher\", .str c!\"QX\")]", "--thinpool": "[(c!\"thin_pool\", .bool true)]", "--thin": "REFUSED", "--poolname=QX": "[(c!\"pool_name\", .str c!\"QX\")]", "--chunksize=42": "REFUSED", "--metadatasize=42": "REFUSED", "--profile=QX": "[(c!\"profile\", .str c!\"QX\")]", "--cachesize=42": "REFUSED", "--cachemode=QX": "REFUSED", "--cachepvs=QX": "REFUSED", "--mkfsoptions=QX": "[(c!\"mkfsopts\", .str c!\"QX\")]", "--luks-version=QX": "[(c!\"luks_version\", .str c!\"QX\")]", "--pbkdf=QX": "[(c!\"pbkdf\", .str c!\"QX\")]", "--pbkdf-memory=42": "[(c!\"pbkdf_memory\", .int 42)]", "--pbkdf-time=42": "[(c!\"pbkdf_time\", .int 42)]", "--pbkdf-iterations=42": "[(c!\"pbkdf_iterations\", .int 42)]", "--bytes-per-inode=42": "REFUSED"}}, "623": {"cmd": "logvol", "cls": "RHEL8_LogVol.cls RHEL8_LogVolData.cls", "vs": [26100], "base": "/x --name=n --vgname=g --useexisting", "bi": 1, "lines": ["--size=42", "--resize", "--noformat", "--fstype=ext4"], "ok": true, "kind": "L", "d": "[(c!\"lineno\", .int 7), (c!\"fstype\", .str c!\"\"), (c!\"grow\", .bool false), (c!\"maxSizeMB\", .int 0), (c!\"name\", .str c!\"n\"), (c!\"format\", .bool true), (c!\"percent\", .int 0), (c!\"recommended\", .bool false), (c!\"size\", .none), (c!\"preexist\", .bool true), (c!\"vgname\", .str c!\"g\"), (c!\"mountpoint\", .str c!\"/x\"), (c!\"fsopts\", .str c!\"\"), (c!\"fsprofile\", .str c!\"\"), (c!\"encrypted\", .bool false), (c!\"passphrase\", .str c!\"\"), (c!\"escrowcert\", .str c!\"\"), (c!\"backuppassphrase\", .bool false), (c!\"label\", .str c!\"\"), (c!\"resize\", .bool false), (c!\"hibernation\", .bool false), (c!\"cipher\", .str c!\"\"), (c!\"thin_pool\", .bool false), (c!\"thin_volume\", .bool false), (c!\"pool_name\", .str c!\"\"), (c!\"chunk_size\", .none), (c!\"metadata_size\", .none), (c!\"profile\", .str c!\"\"), (c!\"cache_size\", .int 0), (c!\"cache_mode\", .str c!\"\"), (c!\"cache_pvs\", .list []), (c!\"mkfsopts\", .str c!\"\"), (c!\"luks_version\", .str c!\"\"), (c!\"pbkdf\", .str c!\"\"), (c!\"pbkdf_memory\", .int 0), (c!\"pbkdf_time\", .int 0), (c!\"pbkdf_iterations\", .int 0), (c!\"mntpoint\", .list [c!\"/x\"])]", "bsets": "[]", "rows": {"--size=42": "[(c!\"size\", .int 42)]", "--resize": "REFUSED", "--noformat": "[(c!\"format\", .bool false)]", "--fstype=ext4": "[(c!\"fstype\", .str c!\"ext4\")]"}}, "624": {"cmd": "logvol", "cls": "RHEL8_LogVol.cls RHEL8_LogVolData.cls", "vs": [26100], "base": "/x --name=n --vgname=g", "bi": 2, "lines": ["--percent=42", "--useexisting", "--noformat"], "ok": false}, "625": {"cmd": "logvol", "cls": "RHEL8_LogVol.cls RHEL8_LogVolData.cls", "vs": [26100], "base": "/x --name=n --vgname=g --size=1 --poolname=p", "bi": 3, "lines": ["--thin", "--thinpool", "--label=QX"], "ok": true, "kind": "L", "d": "[(c!\"lineno\", .int 7), (c!\"fstype\", .str c!\"\"), (c!\"grow\", .bool false), (c!\"maxSizeMB\", .int 0), (c!\"name\", .str c!\"n\"), (c!\"format\", .bool true), (c!\"percent\", .int 0), (c!\"recommended\", .bool false), (c!\"size\", .int 1), (c!\"preexist\", .bool false), (c!\"vgname\", .str c!\"g\"), (c!\"mountpoint\", .str c!\"/x\"), (c!\"fsopts\", .str c!\"\"), (c!\"fsprofile\", .str c!\"\"), (c!\"encrypted\", .bool false), (c!\"passphrase\", .str c!\"\"), (c!\"escrowcert\", .str c!\"\"), (c!\"backuppassphrase\", .bool false), (c!\"label\", .str c!\"\"), (c!\"resize\", .bool false), (c!\"hibernation\", .bool false), (c!\"cipher\", .str c!\"\"), (c!\"thin_pool\", .bool false), (c!\"thin_volume\", .bool false), (c!\"pool_name\", .str c!\"p\"), (c!\"chunk_size\", .none), (c!\"metadata_size\", .none), (c!\"profile\", .str c!\"\"), (c!\"cache_size\", .int 0), (c!\"cache_mode\", .str c!\"\"), (c!\"cache_pvs\", .list []), (c!\"mkfsopts\", .str c!\"\"), (c!\"luks_version\", .str c!\"\"), (c!\"pbkdf\", .str c!\"\"), (c!\"pbkdf_memory\", .int 0), (c!\"pbkdf_time\", .int 0), (c!\"pbkdf_iterations\", .int 0), (c!\"mntpoint\", .list [c!\"/x\"])]", "bsets": "[]", "rows": {"--thin": "[(c!\"thin_volume\", .bool true)]", "--thinpool": "[(c!\"thin_pool\", .bool true)]", "--label=QX": "[(c!\"label\", .str c!\"QX\")]"}}, "626": {"cmd": "logvol", "cls": "RHEL8_LogVol.cls RHEL8_LogVolData.cls", "vs": [26100], "base": "none --name=n --vgname=g --size=1 --thinpool", "bi": 4, "lines": ["--chunksize=42", "--metadatasize=42", "--profile=QX", "--grow"], "ok": true, "kind": "L", "d": "[(c!\"lineno\", .int 7), (c!\"fstype\", .str c!\"\"), (c!\"grow\", .bool false), (c!\"maxSizeMB\", .int 0), (c!\"name\", .str c!\"n\"), (c!\"format\", .bool true), (c!\"percent\", .int 0), (c!\"recommended\", .bool false), (c!\"size\", .int 1), (c!\"preexist\", .bool false), (c!\"vgname\", .str c!\"g\"), (c!\"mountpoint\", .str c!\"none\"), (c!\"fsopts\", .str c!\"\"), (c!\"fsprofile\", .str c!\"\"), (c!\"encrypted\", .bool false), (c!\"passphrase\", .str c!\"\"), (c!\"escrowcert\", .str c!\"\"), (c!\"backuppassphrase\", .bool false), (c!\"label\", .str c!\"\"), (c!\"resize\", .bool false), (c!\"hibernation\", .bool false), (c!\"cipher\", .str c!\"\"), (c!\"thin_pool\", .bool true), (c!\"thin_volume\", .bool false), (c!\"pool_name\", .str c!\"\"), (c!\"chunk_size\", .none), (c!\"metadata_size\", .none), (c!\"profile\", .str c!\"\"), (c!\"cache_size\", .int 0), (c!\"cache_mode\", .str c!\"\"), (c!\"cache_pvs\", .list []), (c!\"mkfsopts\", .str c!\"\"), (c!\"luks_version\", .str c!\"\"), (c!\"pbkdf\", .str c!\"\"), (c!\"pbkdf_memory\", .int 0), (c!\"pbkdf_time\", .int 0), (c!\"pbkdf_iterations\", .int 0), (c!\"mntpoint\", .list [c!\"none\"])]", "bsets": "[]", "rows": {"--chunksize=42": "[(c!\"chunk_size\", .int 42)]", "--metadatasize=42": "[(c!\"metadata_size\", .int 42)]", "--profile=QX": "[(c!\"profile\", .str c!\"QX\")]", "--grow": "[(c!\"grow\", .bool true)]"}}, "627": {"cmd": "logvol", "cls": "RHEL8_LogVol.cls RHEL8_LogVolData.cls", "vs": [26100], "base": "/x --name=n --vgname=g --size=1 --cachepvs=a --cachesize=5", "bi": 5, "lines": ["--cachemode=writeback", "--cachemode=writethrough"], "ok": true, "kind": "L", "d": "[(c!\"lineno\", .int 7), (c!\"fstype\", .str c!\"\"), (c!\"grow\", .bool false), (c!\"maxSizeMB\", .int 0), (c!\"name\", .str c!\"n\"), (c!\"format\", .bool true), (c!\"percent\", .int 0), (c!\"recommended\", .bool false), (c!\"size\", .int 1), (c!\"preexist\", .bool false), (c!\"vgname\", .str c!\"g\"), (c!\"mountpoint\", .str c!\"/x\"), (c!\"fsopts\", .str c!\"\"), (c!\"fsprofile\", .str c!\"\"), (c!\"encrypted\", .bool false), (c!\"passphrase\", .str c!\"\"), (c!\"escrowcert\", .str c!\"\"), (c!\"backuppassphrase\", .bool false), (c!\"label\", .str c!\"\"), (c!\"resize\", .bool false), (c!\"hibernation\", .bool false), (c!\"cipher\", .str c!\"\"), (c!\"thin_pool\", .bool false), (c!\"thin_volume\", .bool false), (c!\"pool_name\", .str c!\"\"), (c!\"chunk_size\", .none), (c!\"metadata_size\", .none), (c!\"profile\", .str c!\"\"), (c!\"cache_size\", .int 5), (c!\"cache_mode\", .str c!\"\"), (c!\"cache_pvs\", .list [c!\"a\"]), (c!\"mkfsopts\", .str c!\"\"), (c!\"luks_version\", .str c!\"\"), (c!\"pbkdf\", .str c!\"\"), (c!\"pbkdf_memory\", .int 0), (c!\"pbkdf_time\", .int 0), (c!\"pbkdf_iterations\", .int 0), (c!\"mntpoint\", .list [c!\"/x\"])]", "bsets": "[]", "rows": {"--cachemode=writeback": "[(c!\"cache_mode\", .str c!\"writeback\")]", "--cachemode=writethrough": "[(c!\"cache_mode\", .str c!\"writethrough\")]"}}, "628": {"cmd": "ostreesetup", "cls": "RHEL8_OSTreeSetup.cls", "vs": [26100], "base": "--osname=o --url=http://u --ref=r", "bi": 0, "lines": ["--osname=QX", "--remote=QX", "--url=QX", "--ref=QX", "--nogpg"], "ok": true, "kind": "P", "d": "[(c!\"osname\", .str c!\"o\"), (c!\"remote\", .str c!\"o\"), (c!\"url\", .str c!\"http://u\"), (c!\"ref\", .str c!\"r\"), (c!\"nogpg\", .bool false)]", "bsets": "[(c!\"osname\", .str c!\"o\"), (c!\"remote\", .str c!\"o\"), (c!\"url\", .str c!\"http://u\"), (c!\"ref\", .str c!\"r\")]", "rows": {"--osname=QX": "[(c!\"osname\", .str c!\"QX\"), (c!\"remote\", .str c!\"QX\")]", "--remote=QX": "[(c!\"remote\", .str c!\"QX\")]", "--url=QX": "REFUSED", "--ref=QX": "[(c!\"ref\", .str c!\"QX\")]", "--nogpg": "[(c!\"nogpg\", .bool true)]"}}, "629": {"cmd": "part", "cls": "RHEL8_Partition.cls RHEL8_PartData.cls", "vs": [26100], "base": "/x --size=1", "bi": 0, "lines": ["--active", "--asprimary", "--start=42", "--end=42", "--fstype=QX", "--type=QX", "--grow", "--maxsize=42", "--noformat", "--onbiosdisk=QX", "--ondisk=QX", "--ondrive=QX", "--onpart=QX", "--usepart=QX", "--recommended", "--size=42", "--fsoptions=QX", "--label=QX", "--bytes-per-inode=QX", "--fsprofile=QX", "--encrypted", "--passphrase=QX", "--start=QX", "--end=QX", "--escrowcert=QX", "--backuppassphrase", "--resize", "--hibernation", "--cipher=QX", "--mkfsoptions=QX", "--luks-version=QX", "--pbkdf=QX", "--pbkdf-memory=42", "--pbkdf-time=42", "--pbkdf-iterations=42", "--bytes-per-inode=42"], "ok": true, "kind": "L", "d": "[(c!\"lineno\", .int 7), (c!\"active\", .bool false), (c!\"primOnly\", .bool false), (c!\"fstype\", .str c!\"\"), (c!\"grow\", .bool false), (c!\"maxSizeMB\", .int 0), (c!\"format\", .bool true), (c!\"onbiosdisk\", .str c!\"\"), (c!\"disk\", .str c!\"\"), (c!\"onPart\", .str c!\"\"), (c!\"recommended\", .bool false), (c!\"size\", .int 1), (c!\"mountpoint\", .str c!\"/x\"), (c!\"fsopts\", .str c!\"\"), (c!\"label\", .str c!\"\"), (c!\"fsprofile\", .str c!\"\"), (c!\"encrypted\", .bool false), (c!\"passphrase\", .str c!\"\"), (c!\"escrowcert\", .str c!\"\"), (c!\"backuppassphrase\", .bool false), (c!\"resize\", .bool false), (c!\"hibernation\", .bool false), (c!\"cipher\", .str c!\"\"), (c!\"mkfsopts\", .str c!\"\"), (c!\"luks_version\", .str c!\"\"), (c!\"pbkdf\", .str c!\"\"), (c!\"pbkdf_memory\", .int 0), (c!\"pbkdf_time\", .int 0), (c!\"pbkdf_iterations\", .int 0), (c!\"mntpoint\", .list [c!\"/x\"])]", "bsets": "[]", "rows": {"--active": "[(c!\"active\", .bool true)]", "--asprimary": "[(c!\"primOnly\", .bool true)]", "--start=42": "REFUSED", "--end=42": "REFUSED", "--fstype=QX": "[(c!\"fstype\", .str c!\"QX\")]", "--type=QX": "[(c!\"fstype\", .str c!\"QX\")]", "--grow": "[(c!\"grow\", .bool true)]", "--maxsize=42": "[(c!\"maxSizeMB\", .int 42)]", "--noformat": "[(c!\"format\", .bool false)]", "--onbiosdisk=QX": "[(c!\"onbiosdisk\", .str c!\"QX\")]", "--ondisk=QX": "[(c!\"disk\", .str c!\"QX\")]", "--ondrive=QX": "[(c!\"disk\", .str c!\"QX\")]", "--onpart=QX": "[(c!\"onPart\", .str c!\"QX\")]", "--usepart=QX": "[(c!\"onPart\", .str c!\"QX\")]", "--recommended": "[(c!\"recommended\", .bool true)]", "--size=42": "[(c!\"size\", .int 42)]", "--fsoptions=QX": "[(c!\"fsopts\", .str c!\"QX\")]", "--label=QX": "[(c!\"label\", .str c!\"QX\")]", "--bytes-per-inode=QX": "REFUSED", "--fsprofile=QX": "[(c!\"fsprofile\", .str c!\"QX\")]", "--encrypted": "[(c!\"encrypted\", .bool true)]", "--passphrase=QX": "[(c!\"passphrase\", .str c!\"QX\")]", "--start=QX": "REFUSED", "--end=QX": "REFUSED", "--escrowcert=QX": "[(c!\"escrowcert\", .str c!\"QX\")]", "--backuppassphrase": "[(c!\"backuppassphrase\", .bool true)]", "--resize": "REFUSED", "--hibernation": "[(c!\"hibernation\", .bool true)]", "--cipher=QX": "[(c!\"cipher\", .str c!\"QX\")]", "--mkfsoptions=QX": "[(c!\"mkfsopts\", .str c!\"QX\")]", "--luks-version=QX": "[(c!\"luks_version\", .str c!\"QX\")]", "--pbkdf=QX": "[(c!\"pbkdf\", .str c!\"QX\")]", "--pbkdf-memory=42": "[(c!\"pbkdf_memory\", .int 42)]", "--pbkdf-time=42": "[(c!\"pbkdf_time\", .int 42)]", "--pbkdf-iterations=42": "[(c!\"pbkdf_iterations\", .int 42)]", "--bytes-per-inode=42": "REFUSED"}}, "630": {"cmd": "part", "cls": "RHEL8_Partition.cls RHEL8_PartData.cls", "vs": [26100], "base": "/x --onpart=sda1 --size=1", "bi": 1, "lines": ["--resize", "--noformat"], "ok": true, "kind": "L", "d": "[(c!\"lineno\", .int 7), (c!\"active\", .bool false), (c!\"primOnly\", .bool false), (c!\"fstype\", .str c!\"\"), (c!\"grow\", .bool false), (c!\"maxSizeMB\", .int 0), (c!\"format\", .bool true), (c!\"onbiosdisk\", .str c!\"\"), (c!\"disk\", .str c!\"\"), (c!\"onPart\", .str c!\"sda1\"), (c!\"recommended\", .bool false), (c!\"size\", .int 1), (c!\"mountpoint\", .str c!\"/x\"), (c!\"fsopts\", .str c!\"\"), (c!\"label\", .str c!\"\"), (c!\"fsprofile\", .str c!\"\"), (c!\"encrypted\", .bool false), (c!\"passphrase\", .str c!\"\"), (c!\"escrowcert\", .str c!\"\"), (c!\"backuppassphrase\", .bool false), (c!\"resize\", .bool false), (c!\"hibernation\", .bool false), (c!\"cipher\", .str c!\"\"), (c!\"mkfsopts\", .str c!\"\"), (c!\"luks_version\", .str c!\"\"), (c!\"pbkdf\", .str c!\"\"), (c!\"pbkdf_memory\", .int 0), (c!\"pbkdf_time\", .int 0), (c!\"pbkdf_iterations\", .int 0), (c!\"mntpoint\", .list [c!\"/x\"])]", "bsets": "[]", "rows": {"--resize": "[(c!\"resize\", .bool true)]", "--noformat": "[(c!\"format\", .bool false)]"}}, "631": {"cmd": "partition", "cls": "RHEL8_Partition.cls RHEL8_PartData.cls", "vs": [26100], "base": "/x --size=1", "bi": 0, "lines": ["--active", "--asprimary", "--start=42", "--end=42", "--fstype=QX", "--type=QX", "--grow", "--maxsize=42", "--noformat", "--onbiosdisk=QX", "--ondisk=QX", "--ondrive=QX", "--onpart=QX", "--usepart=QX", "--recommended", "--size=42", "--fsoptions=QX", "--label=QX", "--bytes-per-inode=QX", "--fsprofile=QX", "--encrypted", "--passphrase=QX", "--start=QX", "--end=QX", "--escrowcert=QX", "--backuppassphrase", "--resize", "--hibernation", "--cipher=QX", "--mkfsoptions=QX", "--luks-version=QX", "--pbkdf=QX", "--pbkdf-memory=42", "--pbkdf-time=42", "--pbkdf-iterations=42", "--bytes-per-inode=42"], "ok": true, "kind": "L", "d": "[(c!\"lineno\", .int 7), (c!\"active\", .bool false), (c!\"primOnly\", .bool false), (c!\"fstype\", .str c!\"\"), (c!\"grow\", .bool false), (c!\"maxSizeMB\", .int 0), (c!\"format\", .bool true), (c!\"onbiosdisk\", .str c!\"\"), (c!\"disk\", .str c!\"\"), (c!\"onPart\", .str c!\"\"), (c!\"recommended\", .bool false), (c!\"size\", .int 1), (c!\"mountpoint\", .str c!\"/x\"), (c!\"fsopts\", .str c!\"\"), (c!\"label\", .str c!\"\"), (c!\"fsprofile\", .str c!\"\"), (c!\"encrypted\", .bool false), (c!\"passphrase\", .str c!\"\"), (c!\"escrowcert\", .str c!\"\"), (c!\"backuppassphrase\", .bool false), (c!\"resize\", .bool false), (c!\"hibernation\", .bool false), (c!\"cipher\", .str c!\"\"), (c!\"mkfsopts\", .str c!\"\"), (c!\"luks_version\", .str c!\"\"), (c!\"pbkdf\", .str c!\"\"), (c!\"pbkdf_memory\", .int 0), (c!\"pbkdf_time\", .int 0), (c!\"pbkdf_iterations\", .int 0), (c!\"mntpoint\", .list [c!\"/x\"])]", "bsets": "[]", "rows": {"--active": "[(c!\"active\", .bool true)]", "--asprimary": "[(c!\"primOnly\", .bool true)]", "--start=42": "REFUSED", "--end=42": "REFUSED", "--fstype=QX": "[(c!\"fstype\", .str c!\"QX\")]", "--type=QX": "[(c!\"fstype\", .str c!\"QX\")]", "--grow": "[(c!\"grow\", .bool true)]", "--maxsize=42": "[(c!\"maxSizeMB\", .int 42)]", "--noformat": "[(c!\"format\", .bool false)]", "--onbiosdisk=QX": "[(c!\"onbiosdisk\", .str c!\"QX\")]", "--ondisk=QX": "[(c!\"disk\", .str c!\"QX\")]", "--ondrive=QX": "[(c!\"disk\", .str c!\"QX\")]", "--onpart=QX": "[(c!\"onPart\", .str c!\"QX\")]", "--usepart=QX": "[(c!\"onPart\", .str c!\"QX\")]", "--recommended": "[(c!\"recommended\", .bool true)]", "--size=42": "[(c!\"size\", .int 42)]", "--fsoptions=QX": "[(c!\"fsopts\", .str c!\"QX\")]", "--label=QX": "[(c!\"label\", .str c!\"QX\")]", "--bytes-per-inode=QX": "REFUSED", "--fsprofile=QX": "[(c!\"fsprofile\", .str c!\"QX\")]", "--encrypted": "[(c!\"encrypted\", .bool true)]", "--passphrase=QX": "[(c!\"passphrase\", .str c!\"QX\")]", "--start=QX": "REFUSED", "--end=QX": "REFUSED", "--escrowcert=QX": "[(c!\"escrowcert\", .str c!\"QX\")]", "--backuppassphrase": "[(c!\"backuppassphrase\", .bool true)]", "--resize": "REFUSED", "--hibernation": "[(c!\"hibernation\", .bool true)]", "--cipher=QX": "[(c!\"cipher\", .str c!\"QX\")]", "--mkfsoptions=QX": "[(c!\"mkfsopts\", .str c!\"QX\")]", "--luks-version=QX": "[(c!\"luks_version\", .str c!\"QX\")]", "--pbkdf=QX": "[(c!\"pbkdf\", .str c!\"QX\")]", "--pbkdf-memory=42": "[(c!\"pbkdf_memory\", .int 42)]", "--pbkdf-time=42": "[(c!\"pbkdf_time\", .int 42)]", "--pbkdf-iterations=42": "[(c!\"pbkdf_iterations\", .int 42)]", "--bytes-per-inode=42": "REFUSED"}}, "632": {"cmd": "partition", "cls": "RHEL8_Partition.cls RHEL8_PartData.cls", "vs": [26100], "base": "/x --onpart=sda1 --size=1", "bi": 1, "lines": ["--resize", "--noformat"], "ok": true, "kind": "L", "d": "[(c!\"lineno\", .int 7), (c!\"active\", .bool false), (c!\"primOnly\", .bool false), (c!\"fstype\", .str c!\"\"), (c!\"grow\", .bool false), (c!\"maxSizeMB\", .int 0), (c!\"format\", .bool true), (c!\"onbiosdisk\", .str c!\"\"), (c!\"disk\", .str c!\"\"), (c!\"onPart\", .str c!\"sda1\"), (c!\"recommended\", .bool false), (c!\"size\", .int 1), (c!\"mountpoint\", .str c!\"/x\"), (c!\"fsopts\", .str c!\"\"), (c!\"label\", .str c!\"\"), (c!\"fsprofile\", .str c!\"\"), (c!\"encrypted\", .bool false), (c!\"passphrase\", .str c!\"\"), (c!\"escrowcert\", .str c!\"\"), (c!\"backuppassphrase\", .bool false), (c!\"resize\", .bool false), (c!\"hibernation\", .bool false), (c!\"cipher\", .str c!\"\"), (c!\"mkfsopts\", .str c!\"\"), (c!\"luks_version\", .str c!\"\"), (c!\"pbkdf\", .str c!\"\"), (c!\"pbkdf_memory\", .int 0), (c!\"pbkdf_time\", .int 0), (c!\"pbkdf_iterations\", .int 0), (c!\"mntpoint\", .list [c!\"/x\"])]", "bsets": "[]", "rows": {"--resize": "[(c!\"resize\", .bool true)]", "--noformat": "[(c!\"format\", .bool false)]"}}, "633": {"cmd": "raid", "cls": "RHEL8_Raid.cls RHEL8_RaidData.cls", "vs": [26100], "base": "/x --device=1 --level=RAID1 raid.1 raid.2", "bi": 0, "lines": ["--device=QX", "--fstype=QX", "--level=RAID0", "--level=0", "--level=RAID1", "--level=1", "--level=RAID5", "--level=5", "--level=RAID6", "--level=6", "--level=RAID10", "--level=10", "--noformat", "--spares=42", "--useexisting", "--fsoptions=QX", "--bytes-per-inode=QX", "--fsprofile=QX", "--encrypted", "--passphrase=QX", "--escrowcert=QX", "--backuppassphrase", "--level=RAID4", "--level=4", "--label=QX", "--cipher=QX", "--mkfsoptions=QX", "--chunksize=42", "--luks-version=QX", "--pbkdf=QX", "--pbkdf-memory=42", "--pbkdf-time=42", "--pbkdf-iterations=42", "--bytes-per-inode=42"], "ok": true, "kind": "L", "d": "[(c!\"lineno\", .int 7), (c!\"device\", .str c!\"1\"), (c!\"fstype\", .str c!\"\"), (c!\"level\", .str c!\"RAID1\"), (c!\"format\", .bool true), (c!\"spares\", .int 0), (c!\"preexist\", .bool false), (c!\"mountpoint\", .str c!\"/x\"), (c!\"members\", .list [c!\"raid.1\", c!\"raid.2\"]), (c!\"fsopts\", .str c!\"\"), (c!\"fsprofile\", .str c!\"\"), (c!\"encrypted\", .bool false), (c!\"passphrase\", .str c!\"\"), (c!\"escrowcert\", .str c!\"\"), (c!\"backuppassphrase\", .bool false), (c!\"label\", .str c!\"\"), (c!\"cipher\", .str c!\"\"), (c!\"mkfsopts\", .str c!\"\"), (c!\"chunk_size\", .none), (c!\"luks_version\", .str c!\"\"), (c!\"pbkdf\", .str c!\"\"), (c!\"pbkdf_memory\", .int 0), (c!\"pbkdf_time\", .int 0), (c!\"pbkdf_iterations\", .int 0), (c!\"mntpoint\", .list [c!\"/x\"]), (c!\"partitions\", .list [c!\"raid.1\", c!\"raid.2\"])]", "bsets": "[]", "rows": {"--device=QX": "[(c!\"device\", .str c!\"QX\")]", "--fstype=QX": "[(c!\"fstype\", .str c!\"QX\")]", "--level=RAID0": "[(c!\"level\", .str c!\"RAID0\")]", "--level=0": "[(c!\"level\", .str c!\"RAID0\")]", "--level=RAID1": "[]", "--level=1": "[]", "--level=RAID5": "[(c!\"level\", .str c!\"RAID5\")]", "--level=5": "[(c!\"level\", .str c!\"RAID5\")]", "--level=RAID6": "[(c!\"level\", .str c!\"RAID6\")]", "--level=6": "[(c!\"level\", .str c!\"RAID6\")]", "--level=RAID10": "[(c!\"level\", .str c!\"RAID10\")]", "--level=10": "[(c!\"level\", .str c!\"RAID10\")]", "--noformat": "REFUSED", "--spares=42": "[(c!\"spares\", .int 42)]", "--useexisting": "REFUSED", "--fsoptions=QX": "[(c!\"fsopts\", .str c!\"QX\")]", "--bytes-per-inode=QX": "REFUSED", "--fsprofile=QX": "[(c!\"fsprofile\", .str c!\"QX\")]", "--encrypted": "[(c!\"encrypted\", .bool true)]", "--passphrase=QX": "[(c!\"passphrase\", .str c!\"QX\")]", "--escrowcert=QX": "[(c!\"escrowcert\", .str c!\"QX\")]", "--backuppassphrase": "[(c!\"backuppassphrase\", .bool true)]", "--level=RAID4": "[(c!\"level\", .str c!\"RAID4\")]", "--level=4": "[(c!\"level\", .str c!\"RAID4\")]", "--label=QX": "[(c!\"label\", .str c!\"QX\")]", "--cipher=QX": "[(c!\"cipher\", .str c!\"QX\")]", "--mkfsoptions=QX": "[(c!\"mkfsopts\", .str c!\"QX\")]", "--chunksize=42": "[(c!\"chunk_size\", .int 42)]", "--luks-version=QX": "[(c!\"luks_version\", .str c!\"QX\")]", "--pbkdf=QX": "[(c!\"pbkdf\", .str c!\"QX\")]", "--pbkdf-memory=42": "[(c!\"pbkdf_memory\", .int 42)]", "--pbkdf-time=42": "[(c!\"pbkdf_time\", .int 42)]", "--pbkdf-iterations=42": "[(c!\"pbkdf_iterations\", .int 42)]", "--bytes-per-inode=42": "REFUSED"}}, "634": {"cmd": "raid", "cls": "RHEL8_Raid.cls RHEL8_RaidData.cls", "vs": [26100], "base": "/x --device=1 --noformat", "bi": 1, "lines": ["--fstype=ext4", "--label=QX"], "ok": true, "kind": "L", "d": "[(c!\"lineno\", .int 7), (c!\"device\", .str c!\"1\"), (c!\"fstype\", .str c!\"\"), (c!\"level\", .str c!\"\"), (c!\"format\", .bool false), (c!\"spares\", .int 0), (c!\"preexist\", .bool true), (c!\"mountpoint\", .str c!\"/x\"), (c!\"members\", .list []), (c!\"fsopts\", .str c!\"\"), (c!\"fsprofile\", .str c!\"\"), (c!\"encrypted\", .bool false), (c!\"passphrase\", .str c!\"\"), (c!\"escrowcert\", .str c!\"\"), (c!\"backuppassphrase\", .bool false), (c!\"label\", .str c!\"\"), (c!\"cipher\", .str c!\"\"), (c!\"mkfsopts\", .str c!\"\"), (c!\"chunk_size\", .none), (c!\"luks_version\", .str c!\"\"), (c!\"pbkdf\", .str c!\"\"), (c!\"pbkdf_memory\", .int 0), (c!\"pbkdf_time\", .int 0), (c!\"pbkdf_iterations\", .int 0), (c!\"mntpoint\", .list [c!\"/x\"]), (c!\"partitions\", .list [])]", "bsets": "[]", "rows": {"--fstype=ext4": "[(c!\"fstype\", .str c!\"ext4\")]", "--label=QX": "[(c!\"label\", .str c!\"QX\")]"}}, "635": {"cmd": "raid", "cls": "RHEL8_Raid.cls RHEL8_RaidData.cls", "vs": [26100], "base": "/x --device=1 --useexisting", "bi": 2, "lines": ["--fstype=ext4", "--label=QX"], "ok": true, "kind": "L", "d": "[(c!\"lineno\", .int 7), (c!\"device\", .str c!\"1\"), (c!\"fstype\", .str c!\"\"), (c!\"level\", .str c!\"\"), (c!\"format\", .bool true), (c!\"spares\", .int 0), (c!\"preexist\", .bool true), (c!\"mountpoint\", .str c!\"/x\"), (c!\"members\", .list []), (c!\"fsopts\", .str c!\"\"), (c!\"fsprofile\", .str c!\"\"), (c!\"encrypted\", .bool false), (c!\"passphrase\", .str c!\"\"), (c!\"escrowcert\", .str c!\"\"), (c!\"backuppassphrase\", .bool false), (c!\"label\", .str c!\"\"), (c!\"cipher\", .str c!\"\"), (c!\"mkfsopts\", .str c!\"\"), (c!\"chunk_size\", .none), (c!\"luks_version\", .str c!\"\"), (c!\"pbkdf\", .str c!\"\"), (c!\"pbkdf_memory\", .int 0), (c!\"pbkdf_time\", .int 0), (c!\"pbkdf_iterations\", .int 0), (c!\"mntpoint\", .list [c!\"/x\"]), (c!\"partitions\", .list [])]", "bsets": "[]", "rows": {"--fstype=ext4": "[(c!\"fstype\", .str c!\"ext4\")]", "--label=QX": "[(c!\"label\", .str c!\"QX\")]"}}, "636": {"cmd": "raid", "cls": "RHEL8_Raid.cls RHEL8_RaidData.cls", "vs": [26100], "base": "/x --device=1 --level=RAID1 raid.1 raid.2 raid.3", "bi": 3, "lines": ["--device=md7", "--device=data", "--level=0", "--level=RAID5", "--level=raid6", "--level=10", "--level=linear", "--spares=1", "--spares=2"], "ok": true, "kind": "L", "d": "[(c!\"lineno\", .int 7), (c!\"device\", .str c!\"1\"), (c!\"fstype\", .str c!\"\"), (c!\"level\", .str c!\"RAID1\"), (c!\"format\", .bool true), (c!\"spares\", .int 0), (c!\"preexist\", .bool false), (c!\"mountpoint\", .str c!\"/x\"), (c!\"members\", .list [c!\"raid.1\", c!\"raid.2\", c!\"raid.3\"]), (c!\"fsopts\", .str c!\"\"), (c!\"fsprofile\", .str c!\"\"), (c!\"encrypted\", .bool false), (c!\"passphrase\", .str c!\"\"), (c!\"escrowcert\", .str c!\"\"), (c!\"backuppassphrase\", .bool false), (c!\"label\", .str c!\"\"), (c!\"cipher\", .str c!\"\"), (c!\"mkfsopts\", .str c!\"\"), (c!\"chunk_size\", .none), (c!\"luks_version\", .str c!\"\"), (c!\"pbkdf\", .str c!\"\"), (c!\"pbkdf_memory\", .int 0), (c!\"pbkdf_time\", .int 0), (c!\"pbkdf_iterations\", .int 0), (c!\"mntpoint\", .list [c!\"/x\"]), (c!\"partitions\", .list [c!\"raid.1\", c!\"raid.2\", c!\"raid.3\"])]", "bsets": "[]", "rows": {"--device=md7": "[(c!\"device\", .str c!\"7\")]", "--device=data": "[(c!\"device\", .str c!\"data\")]", "--level=0": "[(c!\"level\", .str c!\"RAID0\")]", "--level=RAID5": "[(c!\"level\", .str c!\"RAID5\")]", "--level=raid6": "[(c!\"level\", .str c!\"RAID6\")]", "--level=10": "[(c!\"level\", .str c!\"RAID10\")]", "--level=linear": "REFUSED", "--spares=1": "[(c!\"spares\", .int 1)]", "--spares=2": "[(c!\"spares\", .int 2)]"}}, "637": {"cmd": "repo", "cls": "RHEL8_Repo.cls RHEL8_RepoData.cls", "vs": [26100], "base": "--name=r --baseurl=b", "bi": 0, "lines": ["--name=QX", "--baseurl=QX", "--mirrorlist=QX", "--cost=42", "--excludepkgs=QX", "--includepkgs=QX", "--ignoregroups=yes", "--ignoregroups=off", "--proxy=QX", "--noverifyssl", "--install", "--metalink=QX", "--sslcacert=QX", "--sslclientcert=QX", "--sslclientkey=QX"], "ok": true, "kind": "L", "d": "[(c!\"lineno\", .int 7), (c!\"baseurl\", .str c!\"b\"), (c!\"mirrorlist\", .none), (c!\"name\", .str c!\"r\"), (c!\"cost\", .none), (c!\"includepkgs\", .list []), (c!\"excludepkgs\", .list []), (c!\"ignoregroups\", .none), (c!\"proxy\", .str c!\"\"), (c!\"noverifyssl\", .bool false), (c!\"install\", .bool false), (c!\"metalink\", .bool false), (c!\"sslcacert\", .none), (c!\"sslclientcert\", .none), (c!\"sslclientkey\", .none)]", "bsets": "[]", "rows": {"--name=QX": "[(c!\"name\", .str c!\"QX\")]", "--baseurl=QX": "[(c!\"baseurl\", .str c!\"QX\")]", "--mirrorlist=QX": "REFUSED", "--cost=42": "[(c!\"cost\", .int 42)]", "--excludepkgs=QX": "[(c!\"excludepkgs\", .list [c!\"QX\"])]", "--includepkgs=QX": "[(c!\"includepkgs\", .list [c!\"QX\"])]", "--ignoregroups=yes": "[(c!\"ignoregroups\", .bool true)]", "--ignoregroups=off": "[(c!\"ignoregroups\", .bool false)]", "--proxy=QX": "[(c!\"proxy\", .str c!\"QX\")]", "--noverifyssl": "[(c!\"noverifyssl\", .bool true)]", "--install": "[(c!\"install\", .bool true)]", "--metalink=QX": "REFUSED", "--sslcacert=QX": "[(c!\"sslcacert\", .str c!\"QX\")]", "--sslclientcert=QX": "[(c!\"sslclientcert\", .str c!\"QX\")]", "--sslclientkey=QX": "[(c!\"sslclientkey\", .str c!\"QX\")]"}}, "638": {"cmd": "repo", "cls": "RHEL8_Repo.cls RHEL8_RepoData.cls", "vs": [26100], "base": "--name=r --mirrorlist=m", "bi": 1, "lines": ["--baseurl=QX", "--metalink=QX"], "ok": true, "kind": "L", "d": "[(c!\"lineno\", .int 7), (c!\"baseurl\", .str c!\"\"), (c!\"mirrorlist\", .str c!\"m\"), (c!\"name\", .str c!\"r\"), (c!\"cost\", .none), (c!\"includepkgs\", .list []), (c!\"excludepkgs\", .list []), (c!\"ignoregroups\", .none), (c!\"proxy\", .str c!\"\"), (c!\"noverifyssl\", .bool false), (c!\"install\", .bool false), (c!\"metalink\", .bool false), (c!\"sslcacert\", .none), (c!\"sslclientcert\", .none), (c!\"sslclientkey\", .none)]", "bsets": "[]", "rows": {"--baseurl=QX": "REFUSED", "--metalink=QX": "REFUSED"}}, "639": {"cmd": "repo", "cls": "RHEL8_Repo.cls RHEL8_RepoData.cls", "vs": [26100], "base": "--name=r --metalink=m", "bi": 2, "lines": ["--mirrorlist=QX"], "ok": true, "kind": "L", "d": "[(c!\"lineno\", .int 7), (c!\"baseurl\", .str c!\"\"), (c!\"mirrorlist\", .none), (c!\"name\", .str c!\"r\"), (c!\"cost\", .none), (c!\"includepkgs\", .list []), (c!\"excludepkgs\", .list []), (c!\"ignoregroups\", .none), (c!\"proxy\", .str c!\"\"), (c!\"noverifyssl\", .bool false), (c!\"install\", .bool false), (c!\"metalink\", .str c!\"m\"), (c!\"sslcacert\", .none), (c!\"sslclientcert\", .none), (c!\"sslclientkey\", .none)]", "bsets": "[]", "rows": {"--mirrorlist=QX": "REFUSED"}}, "640": {"cmd": "rhsm", "cls": "RHEL8_RHSM.cls", "vs": [26100], "base": "--organization=o --activation-key=k", "bi": 0, "lines": ["--organization=QX", "--activation-key=QX", "--connect-to-insights", "--proxy=QX", "--server-hostname=QX", "--rhsm-baseurl=QX"], "ok": true, "kind": "P", "d": "[(c!\"organization\", .str c!\"o\"), (c!\"activation_keys\", .list [c!\"k\"]), (c!\"connect_to_insights\", .bool false), (c!\"proxy\", .none), (c!\"server_hostname\", .none), (c!\"rhsm_baseurl\", .none)]", "bsets": "[(c!\"organization\", .str c!\"o\"), (c!\"activation_keys\", .list [c!\"k\"]), (c!\"connect_to_insights\", .bool false)]", "rows": {"--organization=QX": "[(c!\"organization\", .str c!\"QX\")]", "--activation-key=QX": "[(c!\"activation_keys\", .list [c!\"k\", c!\"QX\"])]", "--connect-to-insights": "[(c!\"connect_to_insights\", .bool true)]", "--proxy=QX": "[(c!\"proxy\", .str c!\"QX\")]", "--server-hostname=QX": "[(c!\"server_hostname\", .str c!\"QX\")]", "--rhsm-baseurl=QX": "[(c!\"rhsm_baseurl\", .str c!\"QX\")]"}}, "641": {"cmd": "syspurpose", "cls": "RHEL8_Syspurpose.cls", "vs": [26100], "base": "", "bi": 0, "lines": ["--role=QX", "--sla=QX", "--usage=QX", "--addon=QX"], "ok": true, "kind": "P", "d": "[(c!\"role\", .none), (c!\"sla\", .none), (c!\"usage\", .none), (c!\"addons\", .none)]", "bsets": "[]", "rows": {"--role=QX": "[(c!\"role\", .str c!\"QX\")]", "--sla=QX": "[(c!\"sla\", .str c!\"QX\")]", "--usage=QX": "[(c!\"usage\", .str c!\"QX\")]", "--addon=QX": "[(c!\"addons\", .list [c!\"QX\"])]"}}, "642": {"cmd": "syspurpose", "cls": "RHEL8_Syspurpose.cls", "vs": [26100], "base": "--role=a", "bi": 1, "lines": ["--sla=QX", "--usage=QX", "--addon=QX"], "ok": true, "kind": "P", "d": "[(c!\"role\", .str c!\"a\"), (c!\"sla\", .none), (c!\"usage\", .none), (c!\"addons\", .none)]", "bsets": "[(c!\"role\", .str c!\"a\")]", "rows": {"--sla=QX": "[(c!\"sla\", .str c!\"QX\")]", "--usage=QX": "[(c!\"usage\", .str c!\"QX\")]", "--addon=QX": "[(c!\"addons\", .list [c!\"QX\"])]"}}, "643": {"cmd": "url", "cls": "RHEL8_Url.cls", "vs": [26100], "base": "--url=U", "bi": 0, "lines": ["--url=QX", "--proxy=QX", "--noverifyssl", "--mirrorlist=QX", "--metalink=QX", "--sslcacert=QX", "--sslclientcert=QX", "--sslclientkey=QX"], "ok": true, "kind": "P", "d": "[(c!\"url\", .str c!\"U\"), (c!\"proxy\", .str c!\"\"), (c!\"noverifyssl\", .bool false), (c!\"mirrorlist\", .none), (c!\"metalink\", .none), (c!\"sslcacert\", .none), (c!\"sslclientcert\", .none), (c!\"sslclientkey\", .none)]", "bsets": "[(c!\"url\", .str c!\"U\")]", "rows": {"--url=QX": "[(c!\"url\", .str c!\"QX\")]", "--proxy=QX": "[(c!\"proxy\", .str c!\"QX\")]", "--noverifyssl": "[(c!\"noverifyssl\", .bool true)]", "--mirrorlist=QX": "REFUSED", "--metalink=QX": "REFUSED", "--sslcacert=QX": "[(c!\"sslcacert\", .str c!\"QX\")]", "--sslclientcert=QX": "[(c!\"sslclientcert\", .str c!\"QX\")]", "--sslclientkey=QX": "[(c!\"sslclientkey\", .str c!\"QX\")]"}}, "644": {"cmd": "url", "cls": "RHEL8_Url.cls", "vs": [26100], "base": "--mirrorlist=M", "bi": 1, "lines": ["--proxy=QX", "--metalink=QX", "--url=QX"], "ok": true, "kind": "P", "d": "[(c!\"url\", .none), (c!\"proxy\", .str c!\"\"), (c!\"noverifyssl\", .bool false), (c!\"mirrorlist\", .str c!\"M\"), (c!\"metalink\", .none), (c!\"sslcacert\", .none), (c!\"sslclientcert\", .none), (c!\"sslclientkey\", .none)]", "bsets": "[(c!\"mirrorlist\", .str c!\"M\")]", "rows": {"--proxy=QX": "[(c!\"proxy\", .str c!\"QX\")]", "--metalink=QX": "REFUSED", "--url=QX": "REFUSED"}}, "645": {"cmd": "url", "cls": "RHEL8_Url.cls", "vs": [26100], "base": "--metalink=M", "bi": 2, "lines": ["--mirrorlist=QX"], "ok": true, "kind": "P", "d": "[(c!\"url\", .none), (c!\"proxy\", .str c!\"\"), (c!\"noverifyssl\", .bool false), (c!\"mirrorlist\", .none), (c!\"metalink\", .str c!\"M\"), (c!\"sslcacert\", .none), (c!\"sslclientcert\", .none), (c!\"sslclientkey\", .none)]", "bsets": "[(c!\"metalink\", .str c!\"M\")]", "rows": {"--mirrorlist=QX": "REFUSED"}}, "646": {"cmd": "volgroup", "cls": "RHEL8_VolGroup.cls RHEL8_VolGroupData.cls", "vs": [26100], "base": "g pv.1", "bi": 0, "lines": ["--noformat", "--pesize=42", "--useexisting", "--reserved-space=42", "--reserved-percent=42"], "ok": true, "kind": "L", "d": "[(c!\"lineno\", .int 7), (c!\"format\", .bool true), (c!\"pesize\", .int 0), (c!\"preexist\", .bool false), (c!\"vgname\", .str c!\"g\"), (c!\"physvols\", .list [c!\"pv.1\"]), (c!\"reserved_space\", .none), (c!\"reserved_percent\", .none), (c!\"name\", .list [c!\"g\"]), (c!\"partitions\", .list [c!\"pv.1\"])]", "bsets": "[]", "rows": {"--noformat": "REFUSED", "--pesize=42": "[(c!\"pesize\", .int 42)]", "--useexisting": "REFUSED", "--reserved-space=42": "[(c!\"reserved_space\", .int 42)]", "--reserved-percent=42": "[(c!\"reserved_percent\", .int 42)]"}}, "647": {"cmd": "volgroup", "cls": "RHEL8_VolGroup.cls RHEL8_VolGroupData.cls", "vs": [26100], "base": "g --noformat", "bi": 1, "lines": [], "ok": true, "kind": "L", "d": "[(c!\"lineno\", .int 7), (c!\"format\", .bool false), (c!\"pesize\", .int 0), (c!\"preexist\", .bool true), (c!\"vgname\", .str c!\"g\"), (c!\"physvols\", .list []), (c!\"reserved_space\", .none), (c!\"reserved_percent\", .none), (c!\"name\", .list [c!\"g\"]), (c!\"partitions\", .list [])]", "bsets": "[]", "rows": {}}, "648": {"cmd": "volgroup", "cls": "RHEL8_VolGroup.cls RHEL8_VolGroupData.cls", "vs": [26100], "base": "g --useexisting", "bi": 2, "lines": ["--noformat"], "ok": true, "kind": "L", "d": "[(c!\"lineno\", .int 7), (c!\"format\", .bool true), (c!\"pesize\", .int 0), (c!\"preexist\", .bool true), (c!\"vgname\", .str c!\"g\"), (c!\"physvols\", .list []), (c!\"reserved_space\", .none), (c!\"reserved_percent\", .none), (c!\"name\", .list [c!\"g\"]), (c!\"partitions\", .list [])]", "bsets": "[]", "rows": {"--noformat": "[(c!\"format\", .bool false)]"}}, "649": {"cmd": "zipl", "cls": "RHEL8_Zipl.cls", "vs": [26100], "base": "", "bi": 0, "lines": ["--secure-boot", "--force-secure-boot", "--no-secure-boot"], "ok": true, "kind": "P", "d": "[(c!\"secure_boot\", .int -1)]", "bsets": "[]", "rows": {"--secure-boot": "[(c!\"secure_boot\", .int 2)]", "--force-secure-boot": "[(c!\"secure_boot\", .int 1)]", "--no-secure-boot": "[(c!\"secure_boot\", .int 0)]"}}}, "kinds": [["autopart", "--encrypted", "str"], ["autopart", "--passphrase=QX", "str"], ["autostep", "--autoscreenshot", "str"], ["bootloader", "--append=QX", "str"], ["bootloader", "--location=mbr", "str"], ["bootloader", "--location=partition", "str"], ["bootloader", "--location=none", "str"], ["bootloader", "--location=boot", "str"], ["bootloader", "--lba32", "str"], ["bootloader", "--password=QX", "str"], ["bootloader", "--md5pass=QX", "str"], ["bootloader", "--upgrade", "str"], ["bootloader", "--driveorder=QX", "comma"], ["bootloader", "--timeout=42", "lit"], ["bootloader", "--default=QX", "str"], ["clearpart", "--all", "str"], ["clearpart", "--drives=QX", "comma"], ["clearpart", "--initlabel", "str"], ["clearpart", "--linux", "str"], ["clearpart", "--none", "str"], ["device", "--opts=QX", "str"], ["dmraid", "--name=QX", "str"], ["dmraid", "--dev=QX", "str"], ["driverdisk", "--source=QX", "str"], ["driverdisk", "--type=QX", "str"], ["driverdisk", "--biospart=QX", "str"], ["firewall", "--disable", "str"], ["firewall", "--disabled", "str"], ["firewall", "--enable", "str"], ["firewall", "--enabled", "str"], ["firewall", "--port=QX:tcp", "lit"], ["firewall", "--trust=QX", "str"], ["firewall", "--service=QX", "comma"], ["firewall", "--ftp", "str"], ["firewall", "--http", "str"], ["firewall", "--smtp", "str"], ["firewall", "--ssh", "str"], ["firewall", "--telnet=QX", "str"], ["firstboot", "--disable", "str"], ["firstboot", "--disabled", "str"], ["firstboot", "--enable", "str"], ["firstboot", "--enabled", "str"], ["firstboot", "--reconfig", "str"], ["halt", "--eject", "str"], ["harddrive", "--biospart=QX", "str"], ["harddrive", "--partition=QX", "str"], ["harddrive", "--dir=QX", "str"], ["ignoredisk", "--drives=QX", "comma"], ["ignoredisk", "--only-use=QX", "comma"], ["iscsi", "--target=QX", "str"], ["iscsi", "--ipaddr=QX", "str"], ["iscsi", "--port=42", "lit"], ["iscsi", "--user=QX", "str"], ["iscsi", "--password=QX", "str"], ["iscsi", "--reverse-user=QX", "str"], ["iscsi", "--reverse-password=QX", "str"], ["logging", "--host=QX", "str"], ["logging", "--port=QX", "str"], ["logging", "--level=debug", "str"], ["logging", "--level=info", "str"], ["logging", "--level=warning", "str"], ["logging", "--level=error", "str"], ["logging", "--level=critical", "str"], ["logvol", "--fstype=QX", "str"], ["logvol", "--grow", "str"], ["logvol", "--maxsize=42", "lit"], ["logvol", "--name=QX", "str"], ["logvol", "--noformat", "str"], ["logvol", "--percent=42", "lit"], ["logvol", "--recommended", "str"], ["logvol", "--size=42", "lit"], ["logvol", "--useexisting", "str"], ["logvol", "--vgname=QX", "str"], ["logvol", "--fsoptions=QX", "str"], ["logvol", "--bytes-per-inode=QX", "str"], ["logvol", "--fsprofile=QX", "str"], ["logvol", "--encrypted", "str"], ["logvol", "--passphrase=QX", "str"], ["multipath", "--name=QX", "str"], ["multipath", "--device=QX", "str"], ["multipath", "--rule=QX", "str"], ["network", "--bootproto=dhcp", "str"], ["network", "--bootproto=bootp", "str"], ["network", "--bootproto=static", "str"], ["network", "--bootproto=query", "str"], ["network", "--dhcpclass=QX", "str"], ["network", "--device=QX", "str"], ["network", "--essid=QX", "str"], ["network", "--ethtool=QX", "str"], ["network", "--gateway=QX", "str"], ["network", "--hostname=QX", "str"], ["network", "--ip=QX", "str"], ["network", "--mtu=QX", "str"], ["network", "--nameserver=QX", "str"], ["network", "--netmask=QX", "str"], ["network", "--nodns", "str"], ["network", "--onboot=yes", "lit"], ["network", "--onboot=off", "lit"], ["network", "--wepkey=QX", "str"], ["network", "--notksdevice", "str"], ["network", "--noipv4", "str"], ["network", "--noipv6", "str"], ["network", "--ipv6=QX", "str"], ["nfs", "--server=QX", "str"], ["nfs", "--dir=QX", "str"], ["nfs", "--opts=QX", "str"], ["part", "--active", "str"], ["part", "--asprimary", "str"], ["part", "--start=42", "lit"], ["part", "--end=42", "lit"], ["part", "--fstype=QX", "str"], ["part", "--type=QX", "str"], ["part", "--grow", "str"], ["part", "--maxsize=42", "lit"], ["part", "--noformat", "str"], ["part", "--onbiosdisk=QX", "str"], ["part", "--ondisk=QX", "str"], ["part", "--ondrive=QX", "str"], ["part", "--onpart=QX", "lit"], ["part", "--usepart=QX", "lit"], ["part", "--recommended", "str"], ["part", "--size=42", "lit"], ["part", "--fsoptions=QX", "str"], ["part", "--label=QX", "str"], ["part", "--bytes-per-inode=QX", "str"], ["part", "--fsprofile=QX", "str"], ["part", "--encrypted", "str"], ["part", "--passphrase=QX", "str"], ["partition", "--active", "str"], ["partition", "--asprimary", "str"], ["partition", "--start=42", "lit"], ["partition", "--end=42", "lit"], ["partition", "--fstype=QX", "str"], ["partition", "--type=QX", "str"], ["partition", "--grow", "str"], ["partition", "--maxsize=42", "lit"], ["partition", "--noformat", "str"], ["partition", "--onbiosdisk=QX", "str"], ["partition", "--ondisk=QX", "str"], ["partition", "--ondrive=QX", "str"], ["partition", "--onpart=QX", "lit"], ["partition", "--usepart=QX", "lit"], ["partition", "--recommended", "str"], ["partition", "--size=42", "lit"], ["partition", "--fsoptions=QX", "str"], ["partition", "--label=QX", "str"], ["partition", "--bytes-per-inode=QX", "str"], ["partition", "--fsprofile=QX", "str"], ["partition", "--encrypted", "str"], ["partition", "--passphrase=QX", "str"], ["poweroff", "--eject", "str"], ["raid", "--device=QX", "lit"], ["raid", "--fstype=QX", "str"], ["raid", "--level=RAID0", "lit"], ["raid", "--level=0", "lit"], ["raid", "--level=RAID1", "lit"], ["raid", "--level=1", "lit"], ["raid", "--level=RAID5", "lit"], ["raid", "--level=5", "lit"], ["raid", "--level=RAID6", "lit"], ["raid", "--level=6", "lit"], ["raid", "--level=RAID10", "lit"], ["raid", "--level=10", "lit"], ["raid", "--noformat", "str"], ["raid", "--spares=42", "lit"], ["raid", "--useexisting", "str"], ["raid", "--fsoptions=QX", "str"], ["raid", "--bytes-per-inode=QX", "str"], ["raid", "--fsprofile=QX", "str"], ["raid", "--encrypted", "str"], ["raid", "--passphrase=QX", "str"], ["reboot", "--eject", "str"], ["repo", "--name=QX", "str"], ["repo", "--baseurl=QX", "str"], ["repo", "--mirrorlist=QX", "str"], ["repo", "--cost=42", "lit"], ["repo", "--excludepkgs=QX", "comma"], ["repo", "--includepkgs=QX", "comma"], ["rescue", "--nomount", "str"], ["rescue", "--romount", "str"], ["rootpw", "--iscrypted", "str"], ["rootpw", "--lock", "str"], ["rootpw", "--plaintext", "str"], ["selinux", "--disabled", "str"], ["selinux", "--enforcing", "str"], ["selinux", "--permissive", "str"], ["services", "--disabled=QX", "comma"], ["services", "--enabled=QX", "comma"], ["shutdown", "--eject", "str"], ["timezone", "--utc", "str"], ["timezone", "--isUtc", "str"], ["url", "--url=QX", "str"], ["user", "--groups=QX", "comma"], ["user", "--homedir=QX", "str"], ["user", "--iscrypted", "str"], ["user", "--name=QX", "str"], ["user", "--password=QX", "str"], ["user", "--shell=QX", "str"], ["user", "--uid=42", "lit"], ["user", "--lock", "str"], ["user", "--plaintext", "str"], ["vnc", "--password=QX", "str"], ["vnc", "--host=QX", "str"], ["vnc", "--port=QX", "str"], ["volgroup", "--noformat", "str"], ["volgroup", "--pesize=42", "lit"], ["volgroup", "--useexisting", "str"], ["xconfig", "--defaultdesktop=QX", "str"], ["xconfig", "--startxonboot", "str"], ["xconfig", "--driver=QX", "str"], ["xconfig", "--depth=QX", "str"], ["xconfig", "--resolution=QX", "str"], ["xconfig", "--videoram=QX", "str"], ["zfcp", "--devnum=QX", "str"], ["zfcp", "--fcplun=QX", "str"], ["zfcp", "--scsiid=QX", "str"], ["zfcp", "--scsilun=QX", "str"], ["zfcp", "--wwpn=QX", "str"], ["install", "--root-device=QX", "str"], ["part", "--start=QX", "str"], ["part", "--end=QX", "str"], ["partition", "--start=QX", "str"], ["partition", "--end=QX", "str"], ["repo", "--ignoregroups=yes", "lit"], ["repo", "--ignoregroups=off", "lit"], ["upgrade", "--root-device=QX", "str"], ["autopart", "--escrowcert=QX", "str"], ["autopart", "--backuppassphrase", "str"], ["fcoe", "--nic=QX", "str"], ["group", "--name=QX", "str"], ["group", "--gid=42", "lit"], ["logvol", "--escrowcert=QX", "str"], ["logvol", "--backuppassphrase", "str"], ["part", "--escrowcert=QX", "str"], ["part", "--backuppassphrase", "str"], ["partition", "--escrowcert=QX", "str"], ["partition", "--backuppassphrase", "str"], ["raid", "--escrowcert=QX", "str"], ["raid", "--backuppassphrase", "str"], ["user", "--gecos=QX", "str"], ["fcoe", "--dcb", "str"], ["raid", "--level=RAID4", "lit"], ["raid", "--level=4", "lit"], ["repo", "--proxy=QX", "str"], ["sshpw", "--username=QX", "str"], ["sshpw", "--iscrypted", "str"], ["sshpw", "--plaintext", "str"], ["sshpw", "--lock", "str"], ["url", "--proxy=QX", "str"], ["ignoredisk", "--interactive", "str"], ["repo", "--noverifyssl", "str"], ["url", "--noverifyssl", "str"], ["bootloader", "--iscrypted", "str"], ["logvol", "--label=QX", "str"], ["raid", "--label=QX", "str"], ["autopart", "--nolvm", "str"], ["network", "--bootproto=ibft", "str"], ["network", "--activate", "str"], ["network", "--nodefroute", "str"], ["network", "--wpakey=QX", "str"], ["volgroup", "--reserved-space=42", "lit"], ["volgroup", "--reserved-percent=42", "lit"], ["autopart", "--type=lvm", "lit"], ["autopart", "--type=btrfs", "lit"], ["autopart", "--type=plain", "lit"], ["autopart", "--type=partition", "lit"], ["bootloader", "--boot-drive=QX", "str"], ["btrfs", "--noformat", "str"], ["btrfs", "--useexisting", "str"], ["btrfs", "--label=QX", "str"], ["btrfs", "--data=raid0", "lit"], ["btrfs", "--data=0", "lit"], ["btrfs", "--data=raid1", "lit"], ["btrfs", "--data=1", "lit"], ["btrfs", "--data=raid10", "lit"], ["btrfs", "--data=10", "lit"], ["btrfs", "--data=single", "lit"], ["btrfs", "--metadata=raid0", "lit"], ["btrfs", "--metadata=0", "lit"], ["btrfs", "--metadata=raid1", "lit"], ["btrfs", "--metadata=1", "lit"], ["btrfs", "--metadata=raid10", "lit"], ["btrfs", "--metadata=10", "lit"], ["btrfs", "--metadata=single", "lit"], ["btrfs", "--subvol", "str"], ["btrfs", "--parent=QX", "str"], ["btrfs", "--name=QX", "str"], ["clearpart", "--list=QX", "comma"], ["iscsi", "--iface=QX", "str"], ["logvol", "--resize", "str"], ["part", "--resize", "str"], ["partition", "--resize", "str"], ["autopart", "--cipher=QX", "str"], ["bootloader", "--leavebootorder", "str"], ["keyboard", "--vckeymap=QX", "str"], ["keyboard", "--xlayouts=QX", "comma"], ["keyboard", "--switch=QX", "comma"], ["logvol", "--hibernation", "str"], ["logvol", "--cipher=QX", "str"], ["part", "--hibernation", "str"], ["part", "--cipher=QX", "str"], ["partition", "--hibernation", "str"], ["partition", "--cipher=QX", "str"], ["raid", "--cipher=QX", "str"], ["timezone", "--nontp", "str"], ["timezone", "--ntpservers=QX", "comma"], ["url", "--mirrorlist=QX", "str"], ["bootloader", "--extlinux", "str"], ["lang", "--addsupport=QX", "comma"], ["liveimg", "--url=QX", "str"], ["liveimg", "--proxy=QX", "str"], ["liveimg", "--noverifyssl", "str"], ["liveimg", "--checksum=QX", "str"], ["network", "--bondslaves=QX", "str"], ["network", "--bondopts=QX", "str"], ["network", "--vlanid=QX", "str"], ["network", "--ipv6gateway=QX", "str"], ["user", "--gid=42", "lit"], ["autopart", "--type=thinp", "lit"], ["eula", "--agreed", "str"], ["eula", "--agree", "str"], ["eula", "--accepted", "str"], ["eula", "--accept", "str"], ["firewall", "--remove-service=QX", "comma"], ["logvol", "--thinpool", "str"], ["logvol", "--thin", "str"], ["logvol", "--poolname=QX", "str"], ["logvol", "--chunksize=42", "lit"], ["logvol", "--metadatasize=42", "lit"], ["network", "--teamslaves=QX", "lit"], ["network", "--teamconfig=QX", "str"], ["autopart", "--fstype=QX", "str"], ["bootloader", "--disabled", "str"], ["bootloader", "--nombr", "str"], ["clearpart", "--disklabel=QX", "str"], ["logvol", "--profile=QX", "str"], ["network", "--interfacename=QX", "str"], ["ostreesetup", "--osname=QX", "str"], ["ostreesetup", "--remote=QX", "str"], ["ostreesetup", "--url=QX", "str"], ["ostreesetup", "--ref=QX", "str"], ["ostreesetup", "--nogpg", "str"], ["repo", "--install", "str"], ["network", "--bridgeslaves=QX", "str"], ["network", "--bridgeopts=QX", "str"], ["sshkey", "--username=QX", "str"], ["btrfs", "--mkfsoptions=QX", "str"], ["halt", "--kexec", "str"], ["logvol", "--cachesize=42", "lit"], ["logvol", "--cachemode=QX", "str"], ["logvol", "--cachepvs=QX", "comma"], ["logvol", "--mkfsoptions=QX", "str"], ["part", "--mkfsoptions=QX", "str"], ["partition", "--mkfsoptions=QX", "str"], ["poweroff", "--kexec", "str"], ["raid", "--mkfsoptions=QX", "str"], ["reboot", "--kexec", "str"], ["reqpart", "--add-boot", "str"], ["shutdown", "--kexec", "str"], ["sshpw", "--sshkey", "str"], ["network", "--no-activate", "str"], ["raid", "--chunksize=42", "lit"], ["autopart", "--nohome", "str"], ["autopart", "--noboot", "str"], ["autopart", "--noswap", "str"], ["cmdline", "--non-interactive", "str"], ["graphical", "--non-interactive", "str"], ["snapshot", "--name=QX", "str"], ["snapshot", "--when=post-install", "lit"], ["snapshot", "--when=pre-install", "lit"], ["text", "--non-interactive", "str"], ["mount", "--reformat=QX", "str"], ["mount", "--mkfsoptions=QX", "str"], ["mount", "--mountoptions=QX", "str"], ["network", "--bindto=mac", "str"], ["repo", "--metalink=QX", "str"], ["url", "--metalink=QX", "str"], ["clearpart", "--cdl", "str"], ["fcoe", "--autovlan", "str"], ["firewall", "--use-system-defaults", "str"], ["nvdimm", "--namespace=QX", "str"], ["nvdimm", "--blockdevs=QX", "comma"], ["nvdimm", "--mode=sector", "str"], ["nvdimm", "--sectorsize=42", "lit"], ["autopart", "--luks-version=QX", "str"], ["autopart", "--pbkdf=QX", "str"], ["autopart", "--pbkdf-memory=42", "lit"], ["autopart", "--pbkdf-time=42", "lit"], ["autopart", "--pbkdf-iterations=42", "lit"], ["module", "--name=QX", "str"], ["module", "--stream=QX", "str"], ["logvol", "--luks-version=QX", "str"], ["logvol", "--pbkdf=QX", "str"], ["logvol", "--pbkdf-memory=42", "lit"], ["logvol", "--pbkdf-time=42", "lit"], ["logvol", "--pbkdf-iterations=42", "lit"], ["part", "--luks-version=QX", "str"], ["part", "--pbkdf=QX", "str"], ["part", "--pbkdf-memory=42", "lit"], ["part", "--pbkdf-time=42", "lit"], ["part", "--pbkdf-iterations=42", "lit"], ["partition", "--luks-version=QX", "str"], ["partition", "--pbkdf=QX", "str"], ["partition", "--pbkdf-memory=42", "lit"], ["partition", "--pbkdf-time=42", "lit"], ["partition", "--pbkdf-iterations=42", "lit"], ["raid", "--luks-version=QX", "str"], ["raid", "--pbkdf=QX", "str"], ["raid", "--pbkdf-memory=42", "lit"], ["raid", "--pbkdf-time=42", "lit"], ["raid", "--pbkdf-iterations=42", "lit"], ["repo", "--sslcacert=QX", "str"], ["repo", "--sslclientcert=QX", "str"], ["repo", "--sslclientkey=QX", "str"], ["url", "--sslcacert=QX", "str"], ["url", "--sslclientcert=QX", "str"], ["url", "--sslclientkey=QX", "str"], ["module", "--disable", "str"], ["zipl", "--secure-boot", "str"], ["zipl", "--force-secure-boot", "str"], ["zipl", "--no-secure-boot", "str"], ["timesource", "--ntp-server=QX", "str"], ["timesource", "--ntp-pool=QX", "str"], ["timesource", "--ntp-disable", "str"], ["timesource", "--nts", "str"], ["logging", "--level=QX", "str"], ["firewall", "--telnet", "str"], ["firewall", "--high=QX", "str"], ["firewall", "--medium=QX", "str"], ["logvol", "--bytes-per-inode=42", "lit"], ["monitor", "--hsync=QX", "str"], ["monitor", "--monitor=QX", "str"], ["monitor", "--vsync=QX", "str"], ["monitor", "--noprobe", "str"], ["part", "--bytes-per-inode=42", "lit"], ["partition", "--bytes-per-inode=42", "lit"], ["raid", "--bytes-per-inode=42", "lit"], ["vnc", "--connect=QX", "str"], ["xconfig", "--depth=42", "lit"], ["xconfig", "--card=QX", "str"], ["xconfig", "--hsync=QX", "str"], ["xconfig", "--monitor=QX", "str"], ["xconfig", "--noprobe=QX", "str"], ["xconfig", "--vsync=QX", "str"], ["bootloader", "--linear", "str"], ["bootloader", "--nolinear", "str"], ["bootloader", "--useLilo", "str"], ["langsupport", "--default=QX", "str"], ["lilo", "--append=QX", "str"], ["lilo", "--linear", "str"], ["lilo", "--nolinear", "str"], ["lilo", "--location=mbr", "str"], ["lilo", "--location=partition", "str"], ["lilo", "--location=none", "str"], ["lilo", "--location=boot", "str"], ["lilo", "--lba32", "str"], ["lilo", "--password=QX", "str"], ["lilo", "--md5pass=QX", "str"], ["lilo", "--upgrade", "str"], ["lilo", "--useLilo", "str"], ["lilo", "--driveorder=QX", "comma"], ["xconfig", "--noprobe", "str"], ["xconfig", "--server=QX", "str"], ["mouse", "--device=QX", "str"], ["mouse", "--emulthree", "str"], ["bootloader", "--hvargs=QX", "str"], ["key", "--skip", "str"], ["rhsm", "--organization=QX", "str"], ["rhsm", "--activation-key=QX", "str"], ["rhsm", "--connect-to-insights", "str"], ["rhsm", "--proxy=QX", "str"], ["rhsm", "--server-hostname=QX", "str"], ["rhsm", "--rhsm-baseurl=QX", "str"], ["syspurpose", "--role=QX", "str"], ["syspurpose", "--sla=QX", "str"], ["syspurpose", "--usage=QX", "str"], ["syspurpose", "--addon=QX", "str"]]}