#!/usr/bin/env python3
"""Generates lean/Verif/Spec/Messages.lean: the texts of the error codes, taken from the headers in /repo (read as text)."""
import re
R = '/repo/include/eosio/'
out = []

def table(path, enum):
    text = open(R + path).read()
    res = []
    for m in re.finditer(r'case\s+(?:eosio::)?' + enum + r'::(\w+):\s*return\s+(R"\((.*?)\)"|"((?:[^"\\]|\\.)*)")', text):
        name = m.group(1)
        if name == 'no_error':
            continue
        raw = m.group(3)
        s = raw if raw is not None else m.group(4).replace('\\\\', '\\').replace('\\"', '"')
        line = text[:m.start()].count('\n') + 1
        res.append((name, s, line))
    return res

def lit(s):
    return '"' + s.replace('\\', '\\\\').replace('"', '\\"') + '"'

SYNTAX = ['document_empty', 'document_root_not_singular', 'value_invalid', 'object_miss_name', 'object_miss_colon',
          'object_miss_comma_or_curly_bracket', 'array_miss_comma_or_square_bracket', 'string_unicode_escape_invalid_hex',
          'string_unicode_surrogate_invalid', 'string_escape_invalid', 'string_miss_quotation_mark', 'string_invalid_encoding',
          'number_too_big', 'number_miss_fraction', 'number_miss_exponent', 'terminated']

print_ = out.append
print_('''import Verif.Model.Hex
/-
Generated by tools/messages.py from the headers in /repo: the texts of the error codes, as `convert_stream_error`, `convert_json_error` and
`convert_abi_error` give them, and the texts passed to `eosio::check` directly. `no_error`, which is never thrown, is left out.
-/
namespace Abieos.Spec
''')
def emit(name, doc, rows, conv):
    print_(f'/-- {doc} -/')
    print_(f'def {name} : List (Err × String) :=')
    items = [f'({conv(r)}, {lit(r[1])})' for r in rows]
    print_('  [' + ',\n   '.join(items) + ']')
    print_('')
s = table('stream.hpp', 'stream_error')
emit('streamMessages', f'`convert_stream_error` (include/eosio/stream.hpp:{s[0][2]}-{s[-1][2]}).', s, lambda r: '.' + r[0])
j = table('from_json.hpp', 'from_json_error')
emit('jsonMessages', f'`convert_json_error` (include/eosio/from_json.hpp:{j[0][2]}-{j[-1][2]}), the codes the library itself throws.',
     [r for r in j if r[0] not in SYNTAX], lambda r: '.' + r[0])
a = table('abi.hpp', 'abi_error')
emit('abiMessages', f'`convert_abi_error` (include/eosio/abi.hpp:{a[0][2]}-{a[-1][2]}).', a, lambda r: '.' + r[0])
# direct texts
texts = []
for f in ['asset.hpp', 'symbol.hpp', 'time.hpp', 'opaque.hpp']:
    t = open(R + f).read()
    for m in re.finditer(r'check\([^"]*?,\s*"((?:[^"\\]|\\.)*)"\)', t):
        x = m.group(1)
        if x not in [y for y, _ in texts]:
            texts.append((x, f))
t = open('/repo/src/abieos.hpp').read()
for m in re.finditer(r'set_error\(state, "((?:[^"\\]|\\.)*)"\)', t):
    # 527 and 554 cannot be reached: receive_event calls the function that fits the event
    if m.group(1) not in [y for y, _ in texts] + ['expected object', 'expected array']:
        texts.append((m.group(1), 'abieos.hpp'))
def camel(x):
    w = re.sub(r'[^A-Za-z0-9 _]', '', x).replace('_', ' ').split()
    return w[0] + ''.join(y[0].upper() + y[1:] for y in w[1:])
emit('checkMessages', 'Texts passed to `eosio::check` (include/eosio/asset.hpp, symbol.hpp, time.hpp) and set while reading JSON (src/abieos.hpp).', [(camel(x), x) for x, _ in texts], lambda r: '.text .' + r[0])
print_('/-- The texts of the codes of the JSON reader: rapidjson\'s errors, in the order of the enumeration. -/')
print_('def readerMessages : List String :=')
print_('  [' + ',\n   '.join(lit(r[1]) for r in j if r[0] in SYNTAX + ['unspecific_syntax_error']) + ']')
print_('''
/-- The text `w` is that of the error code `e`. -/
def MessageOf (e : Err) (w : Bytes) : Prop :=
  ∃ s : String, (e, s) ∈ streamMessages ++ jsonMessages ++ abiMessages ++ checkMessages ∧ w = str s

end Abieos.Spec''')
open('/verif/lean/Verif/Spec/Messages.lean', 'w').write('\n'.join(out) + '\n')
