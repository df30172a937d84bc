"""Check `hsk_name (src/file.c:a-b)` citations in the model against /repo: print the
real line range of every function whose citation differs."""
import re, sys, glob
R = '/repo/'
def ranges(path):
    L = open(R + path).read().split('\n')
    out = {}
    i = 0
    while i < len(L):
        m = re.match(r'^(\w[\w\s\*]*?\s\*?)?(\w+)\(', L[i])
        if m and not L[i].startswith((' ', '#', '\t')) and not L[i].rstrip().endswith(';'):
            name = m.group(2)
            j = i
            while j < len(L) and not L[j].startswith('}') and not (L[j].rstrip().endswith(');') and '{' not in '\n'.join(L[i:j+1])):
                j += 1
            if j < len(L) and L[j].startswith('}'):
                s = i
                while s > 0 and L[s-1] and not L[s-1].startswith((' ', '#', '}', '/')) and not L[s-1].endswith(';'):
                    s -= 1
                out.setdefault(name, (s + 1, j + 1, i + 1))
                i = j
        i += 1
    return out
cache = {}
# a range inside the function is a citation of a part of it
inside = lambda r, a, b: r[0] <= a and b <= r[1]
fix = '--fix' in sys.argv
sys.argv = [x for x in sys.argv if x != '--fix']
for f in sorted(glob.glob('/verif/lean/Verif/Model/*.lean')):
    if len(sys.argv) > 1 and sys.argv[1] not in f: continue
    t = open(f).read()
    for m in re.finditer(r'(\w+) \((src/[\w.]+):(\d+)-(\d+)\)', t):
        n, p, a, b = m.group(1), m.group(2), int(m.group(3)), int(m.group(4))
        if p not in cache:
            try: cache[p] = ranges(p)
            except Exception: cache[p] = {}
        r = cache[p].get(n)
        if r and not inside(r, a, b):
            if fix:
                s = open(f).read()
                open(f, 'w').write(s.replace(m.group(0), '%s (%s:%d-%d)' % (n, p, r[0], r[1])))
            print(f.split('/')[-1], n, p, 'cited', a, b, 'real', r[0], r[1])
