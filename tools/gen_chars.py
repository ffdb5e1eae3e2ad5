#!/usr/bin/env python3
"""Transcribe the 256-entry character tables of lib/nghttp3_http.c and lib/nghttp3_str.c into Lean."""
import re, sys
repo = sys.argv[1] if len(sys.argv) > 1 else '/repo'
out = ['/-! Generated by tools/gen_chars.py from lib/nghttp3_http.c and lib/nghttp3_str.c; do not edit. -/\nnamespace Nghttp3\nnamespace Chars\n']
def table(fn, name, lean, ty):
    src = open(f'{repo}/lib/{fn}').read()
    i = src.index(name + '[] = {'); j = src.index('\n};', i)
    vals = [int(x) for x in re.findall(r'(-?\d+) /\*', src[i:j])]
    assert len(vals) == 256, (name, len(vals))
    l0 = src[:i].count('\n') + 1; l1 = src[:j].count('\n') + 2
    out.append(f'\n/-- {name}, {fn}:{l0}-{l1} -/\ndef {lean} : List {ty} := [\n')
    for k in range(0, 256, 32):
        out.append('  ' + ', '.join(str(v) for v in vals[k:k + 32]) + (',' if k < 224 else ']') + '\n')
    return vals
for n, l in [('VALID_AUTHORITY_CHARS', 'authorityChars'), ('VALID_METHOD_CHARS', 'methodChars'), ('VALID_PATH_CHARS', 'pathChars'),
             ('VALID_HD_NAME_CHARS', 'nameChars'), ('VALID_HD_VALUE_CHARS', 'valueChars')]:
    v = table('nghttp3_http.c', n, l, 'Int')
    if len(sys.argv) > 2: print(n, [chr(k) if 32 < k < 127 else k for k in range(256) if v[k] == 1])
table('nghttp3_str.c', 'DOWNCASE_TBL', 'downcaseTbl', 'Nat')
out.append('\nend Chars\nend Nghttp3\n')
open('/verif/lean/Verif/Gen/Chars.lean', 'w').write(''.join(out))
