#!/usr/bin/env python3
"""Writes lean/Verif/Real/Westend*.lean: the metadata /repo/for_tests/westend9111 (V14), without the
documentation texts, as Lean terms. Run from /verif: python3 tools/gen_westend.py"""
import os
b = bytes.fromhex(open('/repo/for_tests/westend9111').read().strip()); p = 0
def byte():
    global p; p += 1; return b[p - 1]
def le(n):
    global p; p += n; return int.from_bytes(b[p - n:p], 'little')
def compact():
    m = b[p] & 3
    if m == 0: return byte() >> 2
    if m == 1: return le(2) >> 2
    if m == 2: return le(4) >> 2
    return le((byte() >> 2) + 4)
def vec(f): return [f() for _ in range(compact())]
def opt(f): return f() if byte() else None
def raw():
    n = compact(); global p; p += n; return b[p - n:p]
def string(): return raw().decode()
def field():
    r = (opt(string), compact(), opt(string)); vec(string); return r
def variant():
    r = (string(), vec(field), byte()); vec(string); return r
prims = 'bool char str u8 u16 u32 u64 u128 u256 i8 i16 i32 i64 i128 i256'.split()
def s(x): return '"' + x.replace('\\', '\\\\').replace('"', '\\"').replace('\n', '\\n') + '"'
def o(x, f): return 'none' if x is None else '(some ' + f(x) + ')'
def l(xs, f): return '[' + ', '.join(map(f, xs)) + ']'
def fl(x): return f'⟨{o(x[0], s)}, {x[1]}, {o(x[2], s)}, []⟩'
def vr(x): return f'⟨{s(x[0])}, {l(x[1], fl)}, {x[2]}, []⟩'
parts = []
def typedef():
    k = byte(); parts.append([])
    if k == 0:
        x = vec(field); parts[-1] = [f[1] for f in x]; return f'.composite {l(x, fl)}'
    if k == 1: return f'.variant {l(vec(variant), vr)}'
    if k == 2: return f'.sequence {compact()}'
    if k == 3:
        n = le(4); e = compact(); parts[-1] = [e]; return f'.array {n} {e}'
    if k == 4:
        x = vec(compact); parts[-1] = x; return f'.tuple {l(x, str)}'
    if k == 5: return f'.primitive .{prims[byte()]}'
    if k == 6:
        e = compact(); parts[-1] = [e]; return f'.compact {e}'
    if k == 7:
        st = compact(); return f'.bitSequence {compact()} {st}'
    raise Exception(k)
def typ():
    i = compact(); path = vec(string); params = vec(lambda: (string(), opt(compact)))
    d = typedef(); vec(string)
    return i, f'⟨{l(path, s)}, {l(params, lambda x: "(" + s(x[0]) + ", " + o(x[1], str) + ")")}, {d}, []⟩'
def entry():
    string(); byte()
    if byte() == 0: compact()
    else: vec(byte); compact(); compact()
    raw(); vec(string)
def pallet():
    name = string(); opt(lambda: (string(), vec(entry))); opt(compact); opt(compact)
    def const():
        r = (string(), compact(), raw()); vec(string); return r
    cs = vec(const); opt(compact); byte(); return name, cs
def ext(): return string(), compact(), compact()
assert le(4) == 0x6174656d and byte() == 14
types = vec(typ); pallets = vec(pallet); ety = compact(); ever = byte(); exts = vec(ext)
compact()
assert p == len(b), (p, len(b))
assert [t[0] for t in types] == list(range(len(types)))
out = 'lean/Verif/Real'; os.makedirs(out, exist_ok=True)
N = 32; chunks = [types[i:i + N] for i in range(0, len(types), N)]
h = 'import Verif.Model.Metadata\n/-! Generated by `tools/gen_westend.py` from `/repo/for_tests/westend9111` (documentation texts left out). -/\nnamespace Verif.Westend\n'
t = h
for k, c in enumerate(chunks):
    t += f'\n/-- Types {k*N} to {k*N+len(c)-1} of `for_tests/westend9111`. -/\ndef types{k} : List Typ :=\n  [' + ',\n   '.join(x[1] for x in c) + ']\n'
t += '\n/-- The types of `for_tests/westend9111`. -/\ndef types : List Typ :=\n  ' + ' ++ ('.join(f'types{k}' for k in range(len(chunks))) + ')' * (len(chunks) - 1) + '\n\nend Verif.Westend\n'
open(out + '/WestendTypes.lean', 'w').write(t)
t = h.replace('Verif.Model.Metadata', 'Verif.Real.WestendTypes')
def cn(x): return f'⟨{s(x[0])}, {x[1]}, {l(x[2], str)}⟩'
t += '\n/-- The pallets of `for_tests/westend9111` with their constants. -/\ndef pallets : List Pallet :=\n  [' + ',\n   '.join(f'⟨{s(n)}, {l(cs, cn)}⟩' for n, cs in pallets) + ']\n'
t += '\n/-- The signed extensions of `for_tests/westend9111`. -/\ndef signedExtensions : List SignedExt :=\n  [' + ',\n   '.join(f'⟨{s(n)}, {a}, {c}⟩' for n, a, c in exts) + ']\n'
rank = {}
def rk(i):
    if i not in rank: rank[i] = 1 + max([rk(j) for j in parts[i]], default=-1)
    return rank[i]
t += '\n/-- For each type of `for_tests/westend9111`: through how many structs, tuples, arrays and compacts it goes. -/\ndef ranks : List Nat :=\n  [' + ', '.join(str(rk(i)) for i in range(len(types))) + ']\n'
t += f'\n/-- The metadata `for_tests/westend9111`. -/\ndef v14 : V14 where\n  types := types\n  pallets := pallets\n  extrinsicTy := {ety}\n  extrinsicVersion := {ever}\n  signedExtensions := signedExtensions\n\nend Verif.Westend\n'
open(out + '/Westend.lean', 'w').write(t)
print(len(types), 'types', len(pallets), 'pallets', len(exts), 'extensions')
