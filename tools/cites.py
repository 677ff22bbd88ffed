#!/usr/bin/env python3
"""Fill in / correct the line ranges of citations of whole functions in the Lean comments.
A citation has the form  `Func`, file.c:A-B  ; the range is recomputed from /repo."""
import re, glob, os, sys
src = {}
for f in glob.glob('/repo/src/ngircd/*.c') + glob.glob('/repo/src/*/*.c'):
    b = os.path.basename(f)
    lines = open(f, errors='replace').read().split('\n')
    for i, l in enumerate(lines):
        m = re.match(r'^(?:GLOBAL |static |int |void |bool )*(?:\w+ \*?)*?\b(\w+)\s*\(', l)
        if not m or l.endswith(';') or l.startswith((' ', '\t', '#', '/')): continue
        name = m.group(1)
        # find the opening brace
        j = i
        while j < min(i + 16, len(lines)) and not lines[j].startswith('{') and not lines[j].rstrip().endswith('{'):
            if lines[j].rstrip().endswith(';') and 'PROTOTYPES' not in ''.join(lines[max(0,i-2):i]): break
            j += 1
        else:
            if j < len(lines) and (lines[j].startswith('{') or lines[j].rstrip().endswith('{')):
                k = j
                while k < len(lines) and not lines[k].startswith('}'): k += 1
                start = i
                if 'PROTOTYPES' in ''.join(lines[max(0,i-2):i]): start = i - 1
                if i > 0 and re.match(r'^(GLOBAL|static|int|void|bool)\b', lines[i-1]): start = i - 1
                src.setdefault((b, name), (start + 1, k + 1))
bad = 0
for f in glob.glob('/verif/lean/Verif/**/*.lean', recursive=True):
    t = open(f).read()
    def rep(m):
        global bad
        name, sep, b = m.group(1), m.group(2), m.group(3)
        if (b, name) in src:
            a, e = src[(b, name)]
            return f'`{name}`{sep}{b}:{a}-{e}'
        if m.group(4) == '0':
            bad += 1; print('unknown', f, name, b)
        return m.group(0)
    n = re.sub(r'`(\w+)`(,?\s+)([\w-]+\.c):(\d+)-(\d+)', rep, t)
    if n != t and '-n' not in sys.argv: open(f, 'w').write(n)
    if n != t: print('updated', f)
