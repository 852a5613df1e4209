#!/usr/bin/env python3
"""Resolve citations in the model: replaces ⟦file|needle⟧ or ⟦file|needle#n⟧ in the given .lean files by
`file:start-end`, where start is the line of the n-th occurrence of needle in the non-test part of the
file and end the line closing that item. Fails loudly when a needle is not found."""
import re, sys, glob
FILES = {
 'time.rs':'/repo/fundu-core/src/time.rs','parse.rs':'/repo/fundu-core/src/parse.rs',
 'config.rs':'/repo/fundu-core/src/config.rs','error.rs':'/repo/fundu-core/src/error.rs',
 'core/util.rs':'/repo/fundu-core/src/util.rs',
 'standard/time_units.rs':'/repo/fundu/src/standard/time_units.rs',
 'standard/parser.rs':'/repo/fundu/src/standard/parser.rs',
 'standard/builder.rs':'/repo/fundu/src/standard/builder.rs',
 'custom/time_units.rs':'/repo/fundu/src/custom/time_units.rs',
 'custom/parser.rs':'/repo/fundu/src/custom/parser.rs',
 'custom/builder.rs':'/repo/fundu/src/custom/builder.rs',
 'custom/mod.rs':'/repo/fundu/src/custom/mod.rs',
 'systemd/lib.rs':'/repo/fundu-systemd/src/lib.rs',
 'gnu/lib.rs':'/repo/fundu-gnu/src/lib.rs','gnu/util.rs':'/repo/fundu-gnu/src/util.rs',
 'datetime.rs':'/repo/fundu-gnu/src/datetime.rs',
}
def span(f, needle, n):
    lines = open(FILES[f]).read().split('\n')
    k = 0
    for i,l in enumerate(lines):
        if needle in l and not l.strip().startswith('//'):
            k += 1
            if k == n: break
    else:
        raise SystemExit(f'not found: {f} {needle} #{n}')
    ind = len(l) - len(l.lstrip())
    if l.rstrip().endswith((';', ',')) or ('{' in l and l.rstrip().endswith('}')): return f'{f}:{i+1}'
    for j in range(i+1, len(lines)):
        m = lines[j]
        if m.strip() and len(m)-len(m.lstrip()) == ind and m.lstrip()[0] in '}])':
            # skip a signature's closing `) -> X {`
            if m.rstrip().endswith('{') : continue
            return f'{f}:{i+1}-{j+1}'
    raise SystemExit(f'no end: {f} {needle}')
def sub(m):
    f, needle = m.group(1).split('|',1)
    n = 1
    mm = re.match(r'(.*)#(\d+)$', needle)
    if mm: needle, n = mm.group(1), int(mm.group(2))
    return span(f, needle, n)
for p in sys.argv[1:]:
    s = open(p).read()
    t = re.sub(r'⟦([^⟧]*)⟧', sub, s)
    if t != s: open(p,'w').write(t)
