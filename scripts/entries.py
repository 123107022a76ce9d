"""List the written forms of the command and data classes of the generated model."""
import re, glob, os
D = os.path.join(os.path.dirname(__file__), '..', 'lean', 'Verif', 'Commands')
def load():
    src = {}
    for f in sorted(glob.glob(D + '/*.lean')):
        src[os.path.basename(f)[:-5]] = open(f).read()
    return src
def entries():
    src = load()
    data = {}
    plain, lists = [], []
    for mod, t in src.items():
        for m in re.finditer(r'^def (\w+)\.cls : DataCls := \{ init := ([\w.]+), str := (.*?), eq := (.*) \}$', t, re.M):
            data[m[1]] = (m[2], m[3])
        for m in re.finditer(r'^def (\w+)\.cls : Command := plainCmd c!"\w+" (\(some \d+\)|\S+) (\S+) (.*)$', t, re.M):
            plain.append((mod, m[1], m[3], m[4]))
        for m in re.finditer(r'^def (\w+)\.cls \(dc : DataCls\) : Command := listCmd c!"\w+" (\(some \d+\)|\S+) (\S+) dc (.*)$', t, re.M):
            lists.append((mod, m[1], m[3], m[4]))
    # pairs used in the maps
    pairs = set(re.findall(r'(\w+)\.cls (\w+)\.cls', src['Maps']))
    used = set(re.findall(r'(\w+)\.cls', src['Maps']))
    return data, plain, lists, pairs, used
def split2(s):
    # two parenthesised or atomic terms
    out, i = [], 0
    while i < len(s):
        if s[i] == ' ': i += 1; continue
        if s[i] == '(':
            d, j = 0, i
            while True:
                if s[j] == '(': d += 1
                if s[j] == ')':
                    d -= 1
                    if d == 0: break
                j += 1
            out.append(s[i:j+1]); i = j + 1
        else:
            j = s.find(' ', i)
            if j < 0: j = len(s)
            out.append(s[i:j]); i = j
    return out
if __name__ == '__main__':
    data, plain, lists, pairs, used = entries()
    print(len(data), len(plain), len(lists), len(pairs), len(used))
    print([p for p in plain if p[1] not in used][:5], len([p for p in plain if p[1] in used]))
    for p in plain[:3]: print(p)
    for p in lists[:3]: print(p)
    print(sorted(pairs)[:5])
