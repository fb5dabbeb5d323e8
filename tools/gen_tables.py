#!/usr/bin/env python3
"""Generate lean/Verif/Model/Tables.lean from the tables in /repo/src/{double,quad}/common.rs."""
import re, os, sys
sys.path.insert(0, os.path.dirname(__file__))
from consts import lit
o = []
w = o.append
w('''import Verif.Model.Quad

/-!
# The tables of `src/quad/common.rs` (those of `src/double/common.rs` are in `Model.Double`)

Generated by `tools/gen_tables.py` from the decimal literals in the source. Arrays are lists; an index outside the list is
a panic.
-/

namespace Verif
''')
for ty, n, path in (('Quad', 4, 'src/quad/common.rs'),):
    src = open('/repo/' + path).read()
    w(f'namespace {ty}\n')
    if ty == 'Quad': w('''/-- A `Quad` written with four decimal literals. -/
def lit (s1 : Bool) (n1 : ℕ) (e1 : ℤ) (s2 : Bool) (n2 : ℕ) (e2 : ℤ) (s3 : Bool) (n3 : ℕ) (e3 : ℤ)
    (s4 : Bool) (n4 : ℕ) (e4 : ℤ) : Quad := ⟨F64.ofDec s1 n1 e1, F64.ofDec s2 n2 e2, F64.ofDec s3 n3 e3, F64.ofDec s4 n4 e4⟩
''')
    for m in re.finditer(r'pub const (\w+): \[(\w+); (\d+)\] = \[(.*?)\n\];', src, re.S):
        a = src.count('\n', 0, m.start()) + 1; b = src.count('\n', 0, m.end()) + 1
        body = re.sub(r'//.*', '', m[4])
        ents = re.findall(ty + r'\(([^)]*)\)', body)
        assert len(ents) == int(m[3])
        rows = []
        for e in ents:
            parts = [p.strip() for p in e.split(',') if p.strip()]
            assert len(parts) == n
            rows.append('lit ' + ' '.join(lit(p) for p in parts))
        w(f'/-- `{m[1]}` — {path}:{a}-{b} -/')
        w(f'def {m[1]} : List {ty} := [\n  ' + ',\n  '.join(rows) + ']\n')
    w(f'end {ty}\n')
w('end Verif')
open(os.path.join(os.path.dirname(__file__), '../lean/Verif/Model/Tables.lean'), 'w').write('\n'.join(o) + '\n')
