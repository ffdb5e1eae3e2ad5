#!/usr/bin/env python3
"""Transcribe the Huffman tables of lib/nghttp3_qpack_huffman_data.c into Lean."""
import re, sys
repo = sys.argv[1] if len(sys.argv) > 1 else '/repo'
src = open(f'{repo}/lib/nghttp3_qpack_huffman_data.c').read()
i = src.index('huffman_sym_table[]'); j = src.index('qpack_huffman_decode_table[][16]')
num = r'(0x[0-9a-fA-F]+|\d+)u?'
syms = [(int(a, 0), int(b, 0)) for a, b in re.findall(r'\{\s*' + num + r'\s*,\s*' + num + r'\s*\}', src[i:j])]
assert len(syms) == 257, len(syms)
ents = [(int(a, 0), int(b, 0)) for a, b in re.findall(r'\{\s*' + num + r'\s*,\s*' + num + r'\s*,?\s*\}', src[j:])]
assert len(ents) == 257 * 16, len(ents)
rows = [ents[16 * k:16 * k + 16] for k in range(257)]
# path of bits leading to each state, found by walking the table
codes = [format(c >> (32 - n), f'0{n}b') for n, c in syms]
path = {0: ''}
todo = [0]
while todo:
    n = todo.pop()
    for x in range(16):
        st, sym = rows[n][x]
        m = st & 0x1ff
        if m == 256: continue
        bs = path[n] + format(x, '04b')
        if st & 0x8000:
            if not bs.startswith(codes[sym]): continue   # wrong tables are caught by the Lean check, not here
            bs = bs[len(codes[sym]):]
        if m not in path:
            path[m] = bs; todo.append(m)
out = open('/verif/lean/Verif/Gen/HuffData.lean', 'w')
w = out.write
w('''/-! Generated by tools/gen_huff.py from lib/nghttp3_qpack_huffman_data.c; do not edit.

`symTable` is huffman_sym_table (l.29-95): (nbits, code aligned to the most significant bit of 32).
`decTable` is qpack_huffman_decode_table (l.97-4981): rows of 16 (fstate, sym).
`paths` is proof data, not taken from the source: for each state the bits read since the last symbol, as
(number of bits, value); it is checked, not trusted. -/
namespace Nghttp3
namespace Huff

def symTable : List (Nat × Nat) := [
''')
w(',\n'.join('  ' + ', '.join(f'({a}, 0x{b:08x})' for a, b in syms[k:k+6]) for k in range(0, 257, 6)))
w(']\n\n')
for blk in range(0, 257, 32):
    w(f'def decRows{blk} : List (List (Nat × Nat)) := [\n')
    w(',\n'.join(f'  [' + ', '.join(f'(0x{a:x}, {b})' for a, b in r) + ']' for r in rows[blk:blk+32]))
    w(']\n\n')
w('def decTable : List (List (Nat × Nat)) :=\n  ' + ' ++ '.join(f'decRows{b}' for b in range(0, 257, 32)) + '\n\n')
w('def paths : List (Nat × Nat) := [\n')
ps = [(len(path[k]), int('0' + path[k], 2)) for k in range(256)]
w(',\n'.join('  ' + ', '.join(f'({a}, {b})' for a, b in ps[k:k+8]) for k in range(0, 256, 8)))
w(']\n\nend Huff\nend Nghttp3\n')
