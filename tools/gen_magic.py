#!/usr/bin/env python3
"""Transcribes /repo/fileid/magic.h into lean/Verif/Model/MagicTable.lean.

Each array becomes a byte list, each MagicInfo a table row; the source line is kept as a comment.
"""
import re
src = open('/repo/fileid/magic.h', encoding='utf-8').read().splitlines()
arr = {}
rows = []
for n, line in enumerate(src, 1):
    m = re.match(r'unsigned char (\w+)\[(\d+)\] = \{(.*)\};', line)
    if m:
        vals = [int(x, 16) for x in m.group(3).split(',')]
        arr[m.group(1)] = (n, int(m.group(2)), vals)
        continue
    m = re.match(r'\s*list\.push_back\(new common::MagicInfo\("((?:[^"\\]|\\.)*)", "((?:[^"\\]|\\.)*)", "((?:[^"\\]|\\.)*)", (\d+), (\d+), (\w+), ([\w:]+)\)\);', line)
    if m:
        rows.append((n,) + m.groups())
        continue
    if 'push_back' in line or 'unsigned char' in line:
        raise SystemExit('unparsed line %d: %s' % (n, line))
seen = sorted({r[7] for r in rows if r[7] != 'nullptr'})
out = []
out.append('import Verif.Model.MagicInfo')
out.append('')
out.append('/-!')
out.append('# The signature table of `fileid/magic.h`')
out.append('')
out.append('Generated by `tools/gen_magic.py` from `/repo/fileid/magic.h`: arrays from lines %d-%d, rows from' %
           (min(a[0] for a in arr.values()), max(a[0] for a in arr.values())))
out.append('`initList()`, lines %d-%d, in order. Every row cites its line.' % (rows[0][0], rows[-1][0]))
out.append('-/')
out.append('')
out.append('namespace Fileid.Magic')
out.append('')
out.append('open Fileid.Common')
out.append('')
for name, (n, sz, vals) in arr.items():
    assert sz == len(vals), name
    out.append('/-- magic.h:%d -/' % n)
    out.append('def %s : Bytes := [%s]' % (name, ', '.join('0x%02X' % v for v in vals)))
out.append('')
out.append('/-- magic.h:%d-%d, the entries pushed by one call of `initList()`. -/' % (rows[0][0], rows[-1][0]))
out.append('def table : List MagicInfo := [')
for i, (n, ext, name, ver, off, size, mg, d) in enumerate(rows):
    dd = 'none' if d == 'nullptr' else '(some .%s)' % d.replace('::', '_')
    out.append('  ⟨b!"%s", b!"%s", b!"%s", %s, %s, %s, %s⟩%s -- magic.h:%d' %
               (ext, name, ver, off, size, mg, dd, ',' if i + 1 < len(rows) else ']', n))
out.append('')
out.append('end Fileid.Magic')
open('/verif/lean/Verif/Model/MagicTable.lean', 'w').write('\n'.join(out) + '\n')
print(len(arr), len(rows), seen)
