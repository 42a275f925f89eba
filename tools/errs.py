#!/usr/bin/env python3
"""Writes lean/Verif/Model/ErrCodes.lean from /repo/netx/connection/errs/codes.go."""
import re
rows = []
for i, l in enumerate(open('/repo/netx/connection/errs/codes.go'), 1):
    m = re.match(r'\s+(\w+)\s*=\s*(\d+)\s*$', l)
    if m:
        rows.append((i, m[1], int(m[2])))
    else:
        assert l.strip() in ('', 'const (', ')', 'package errs'), l
out = ['/-! Generated from /repo/netx/connection/errs/codes.go by tools/errs.py. -/', 'namespace Verif.Model', '',
       f'/-- codes.go:{rows[0][0]}-{rows[-1][0]}: all constants, in the order of the file -/', 'def errCodes : List (String × Nat) :=']
lines, cur = [], ''
for _, n, c in rows:
    item = f'("{n}", {c}), '
    if len(cur) + len(item) > 120:
        lines.append(cur.rstrip())
        cur = ''
    cur += item
lines.append(cur.rstrip().rstrip(','))
out.append('  [' + '\n   '.join(lines) + ']')
out += ['', 'end Verif.Model']
open('/verif/lean/Verif/Model/ErrCodes.lean', 'w').write('\n'.join(out) + '\n')
