#!/usr/bin/env python3
"""Transcribe the QPACK static table, the token table and the token lookup switch of lib/nghttp3_qpack.c."""
import re, sys
repo = sys.argv[1] if len(sys.argv) > 1 else '/repo'
src = open(f'{repo}/lib/nghttp3_qpack.c').read()
hdr = open(f'{repo}/lib/includes/nghttp3/nghttp3.h').read()
# enum values (C rule: previous + 1 when no initialiser)
m = re.search(r'typedef enum nghttp3_qpack_token \{(.*?)\} nghttp3_qpack_token;', hdr, re.S)
body = re.sub(r'/\*.*?\*/', '', m.group(1), flags=re.S)
tok = {}; last = -1
for it in body.split(','):
    it = it.strip()
    if not it: continue
    if '=' in it:
        n, v = [x.strip() for x in it.split('=')]; last = int(v, 0)
    else:
        n = it; last += 1
    tok[n] = last
def cstr(lit):
    return ''.join(re.findall(r'"((?:[^"\\]|\\.)*)"', lit))
def bl(s): return '[' + ', '.join(str(b) for b in s.encode()) + ']'
i = src.index('token_stable[] = {'); j = src.index('};', i)
ents = [(int(a), tok[t], int(h)) for a, t, h in re.findall(r'MAKE_STATIC_ENT\(\s*(\d+),\s*(\w+),\s*(\d+)u\)', src[i:j])]
i = src.index('stable[] = {', j); j = src.index('};', i)
hds = [(n, v, tok[t]) for n, v, t in re.findall(r'MAKE_STATIC_HD\(\s*"((?:[^"\\]|\\.)*)",\s*"((?:[^"\\]|\\.)*)",\s*(\w+)\)', src[i:j])]
assert len(ents) == 99 and len(hds) == 99, (len(ents), len(hds))
i = src.index('static int32_t qpack_lookup_token('); j = src.index('\n}\n', i)
fn = src[i:j]
sw = []  # (len, lastIdx, [(char, [(prefix, plen, token)])])
for line in fn.splitlines():
    m = re.match(r'\s*case (\d+):', line)
    if m: sw.append([int(m.group(1)), None, []]); continue
    m = re.match(r'\s*switch \(name\[(\d+)\]\)', line)
    if m: sw[-1][1] = int(m.group(1)); continue
    m = re.match(r"\s*case '(.)':", line)
    if m: sw[-1][2].append([ord(m.group(1)), []]); continue
    m = re.match(r'\s*if \(memeq\("(.*)", name, (\d+)\)\)', line)
    if m: sw[-1][2][-1][1].append([m.group(1), int(m.group(2)), None]); continue
    m = re.match(r'\s*return (NGHTTP3_\w+);', line)
    if m: sw[-1][2][-1][1][-1][2] = tok[m.group(1)]
nret = len(re.findall(r'return NGHTTP3', fn))
assert nret == sum(len(c[1]) for s in sw for c in s[2]), nret
w = open('/verif/lean/Verif/Gen/StaticTable.lean', 'w').write
out = ['''/-! Generated by tools/gen_static.py from lib/nghttp3_qpack.c and lib/includes/nghttp3/nghttp3.h; do not edit. -/
namespace Nghttp3
namespace Qpack

/-- a row of the switch of qpack_lookup_token: name length, index of the character switched on, and per
character the list of (string compared with memeq, number of bytes compared, token returned) -/
structure SwitchRow where
  len : Nat
  idx : Nat
  cases : List (Nat × List (List UInt8 × Nat × Nat))

/-! nghttp3_qpack_token, nghttp3.h:774-1060 (only the ones the code refers to by name) -/
''']
for n in ['_AUTHORITY','_METHOD','_PATH','_SCHEME','_STATUS','_PROTOCOL','AUTHORIZATION','COOKIE','AGE','CONTENT_LENGTH','ETAG','IF_MODIFIED_SINCE','IF_NONE_MATCH','LOCATION','SET_COOKIE','HOST','TE','PRIORITY','CONNECTION','KEEP_ALIVE','PROXY_CONNECTION','TRANSFER_ENCODING','UPGRADE']:
    out.append(f'def TOKEN_{n.lstrip("_") if n not in ("_PROTOCOL",) else "PROTOCOL"} : Nat := {tok["NGHTTP3_QPACK_TOKEN_"+n]}\n')
out.append('\n/-- `stable[]`, nghttp3_qpack.c:187-336: (name, value, token) -/\ndef stable : List (List UInt8 × List UInt8 × Nat) := [\n')
out.append(',\n'.join(f'  ({bl(n)}, {bl(v)}, {t}) /- {n}: {v} -/' for n, v, t in hds) + ']\n')
out.append('\n/-- `token_stable[]`, nghttp3_qpack.c:52-166: (absidx, token, hash) -/\ndef tokenStable : List (Nat × Nat × Nat) := [\n')
out.append(',\n'.join(f'  ({a}, {t}, {h})' for a, t, h in ents) + ']\n')
out.append('\n/-- the switch of qpack_lookup_token, nghttp3_qpack.c:343-734 -/\ndef lookupSwitch : List SwitchRow := [\n')
rows = []
for L, idx, cs in sw:
    rows.append(f'  ⟨{L}, {idx}, [' + ',\n    '.join(f'({c}, [' + ', '.join(f'({bl(p)}, {n}, {t})' for p, n, t in xs) + '])' for c, xs in cs) + ']⟩')
out.append(',\n'.join(rows) + ']\n\nend Qpack\nend Nghttp3\n')
w(''.join(out))
print(len(ents), len(hds), nret)
