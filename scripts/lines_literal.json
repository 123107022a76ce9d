{
 "clearpart": [
  "--list=QX"
 ],
 "dmraid": [
  "--name=QX"
 ],
 "timezone": [
  "--ntpservers=QX"
 ],
 "autopart": [
  "--fstype=QX"
 ],
 "bootloader": [
  "--boot-drive=QX"
 ],
 "ignoredisk": [
  "--drives=QX",
  "--only-use=QX"
 ],
 "services": [
  "--disabled=QX"
 ],
 "vnc": [
  "--connect=QX"
 ],
 "multipath": [
  "--name=QX"
 ],
 "part": [
  "--fstype=QX",
  "--type=QX"
 ]
}