#!/usr/bin/env python3
"""Generates lean/Verif/Model/Ship.lean from the declarations of include/eosio/ship_protocol.hpp."""
import re
SRC = '/repo/include/eosio/ship_protocol.hpp'
text = open(SRC).read()
line = lambda pos: text.count('\n', 0, pos) + 1
LEAF = {'bool': 'bool', 'uint8_t': 'uint8', 'uint16_t': 'uint16', 'uint32_t': 'uint32', 'uint64_t': 'uint64', 'int64_t': 'int64',
        'uint128_t': 'uint128', 'double': 'float64', 'std::string': 'string', 'eosio::float128': 'float128', 'eosio::name': 'name',
        'eosio::checksum256': 'checksum256', 'eosio::varuint32': 'varuint32', 'eosio::signature': 'signature', 'eosio::public_key': 'public_key',
        'eosio::time_point_sec': 'time_point_sec', 'eosio::time_point': 'time_point', 'eosio::block_timestamp': 'block_timestamp',
        'eosio::input_stream': 'bytes', 'transaction_status': 'uint8'}
structs, usings = {}, {}
def split(s):
    out, d, cur = [], 0, ''
    for c in s:
        if c == '<': d += 1
        if c == '>': d -= 1
        if c == ',' and d == 0: out.append(cur.strip()); cur = ''
        else: cur += c
    return out + [cur.strip()]
# members, by struct: the nested structs of prunable_data_type first
def members(body):
    m = {}
    for t, n in re.findall(r'^\s*([\w:]+(?:<.*>)?)\s+(\w+)\s*(?:=\s*\{\}|\{\})?;', body, re.M): m[n] = t
    return m
decl = {}
nested = re.search(r'struct prunable_data_type \{(.*?)\n   \};', text, re.S)
for k in re.finditer(r'struct (\w+) \{([^{}]*)\};', nested.group(1)):
    decl['prunable_data_type::' + k.group(1)] = (members(k.group(2)), None, line(nested.start(1) + k.start()))
body = re.sub(r'struct \w+ \{[^{}]*\};', '', nested.group(1))
decl['prunable_data_type'] = (members(body), None, line(nested.start()))
for k in re.finditer(r'struct (\w+)(?: : (\w+))? \{\n(.*?\n)   \};|struct (\w+) \{\};', text, re.S):
    name = k.group(1) or k.group(4)
    if name == 'prunable_data_type' or name in decl: continue
    decl[name] = (members(k.group(3) or ''), k.group(2), line(k.start()))
for k in re.finditer(r'using (\w+)\s*=\s*([^;]+);', text):
    usings[k.group(1)] = (' '.join(k.group(2).split()), line(k.start()))
reflect, order = {}, []
for k in re.finditer(r'EOSIO_REFLECT\(([^)]*)\)', text):
    a = [' '.join(x.split()) for x in k.group(1).split(',')]
    reflect[a[0]] = (a[1:], line(k.start()), line(k.end())); order.append(a[0])
def ty(t, scope=None):
    t = t.strip()
    if t in LEAF: return f'.leaf .{LEAF[t]}'
    m = re.fullmatch(r'([\w:]+)<(.*)>', t)
    if m:
        f, a = m.group(1), m.group(2)
        if f == 'std::vector': return f'.vec ({ty(a, scope)})'
        if f == 'std::optional': return f'.opt ({ty(a, scope)})'
        if f == 'eosio::opaque': return '.leaf .bytes'
        if f == 'std::variant': return '.variant [' + ', '.join(ty(x, scope) for x in split(a)) + ']'
        raise Exception(t)
    if t == 'recurse_transaction_trace': return ty('transaction_trace')
    if t in usings: return ty(usings[t][0], 'prunable_data_type' if t in ('segment_type', 'prunable_data_t') else None)
    if scope and scope + '::' + t in reflect: t = scope + '::' + t
    if t in reflect: return f'.struct (str "{t}")'
    raise Exception(t)
def fields(s):
    out = []
    for f in reflect[s][0]:
        if f.startswith('base '): out += fields(f[5:]); continue
        ms = dict(decl[s][0])
        out.append((f, ms[f]))
    return out
L = []
for s in order:
    a, l1, l2 = reflect[s]
    fs = fields(s)
    L.append((s, decl[s][2], l2, [(f, ty(t, 'prunable_data_type' if s.startswith('prunable') else None)) for f, t in fs]))
out = ['''import Verif.Model.StaticValue
/-!
The types of the state-history protocol (include/eosio/ship_protocol.hpp), generated by tools/ship.py from the header: the structs with their
reflected members, those of the base first, and the variants.

Simplified: an `eosio::input_stream` and an `eosio::opaque<T>` have the binary form of `bytes` (a size and so many bytes; C62 is about what is
inside); `transaction_status` is the number it is stored as; `recurse_transaction_trace` (339-351), which is serialized as the
`transaction_trace` in it, is that. Their JSON is in Model/ShipJson.
-/
namespace Abieos
namespace Ship
''']
for s, l1, l2, fs in L:
    d = s.replace('::', '_')
    body = ',\n  '.join(f'(str "{f}", {t})' for f, t in fs)
    out.append(f'/-- ship_protocol.hpp:{l1}-{l2} -/\ndef {d} : Bytes × List (Bytes × CTy) := (str "{s}", [{body}])\n')
out.append('/-- ship_protocol.hpp: every reflected struct -/\ndef prog : Prog := [' + ', '.join(s.replace('::', '_') for s, *_ in L) + ']\n')
names = []
for u, (t, l) in usings.items():
    if u in ('segment_type', 'prunable_data_t'): continue
    names.append(u)
    out.append(f'/-- ship_protocol.hpp:{l} -/\ndef {u}Ty : CTy := {ty(t)}\n')
out.append('/-- The variants, what messages, traces and rows of deltas are read as. -/\ndef variants : List CTy := [' + ', '.join(n + 'Ty' for n in names) + ']\n')
out.append('end Ship\nend Abieos\n')
open('/verif/lean/Verif/Model/Ship.lean', 'w').write('\n'.join(out))
print(len(L), 'structs', len(names), 'variants')
