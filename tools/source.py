"""Writes the text of /repo/src/*.rs, up to the tests, to lean/Verif/Source/Text.lean."""

FILES = ['argument', 'attribute', 'common', 'dictionary', 'interface', 'lib', 'literal', 'macros', 'mixin',
         'namespace', 'term', 'types', 'whitespace']
CHUNK = 100

out = ['''import Verif.Model.Nom

/-!
# The text of `/repo/src/*.rs`

Line by line, up to the tests. Generated by `tools/source.py`.
-/

namespace Verif.Source

set_option maxRecDepth 2000
''']


def literal(line):
    return '  c!"' + line.replace('\\', '\\\\').replace('"', '\\"') + '"'


for f in FILES:
    lines = open(f'/repo/src/{f}.rs').read().split('\n')
    if '#[cfg(test)]' in lines:
        lines = lines[:lines.index('#[cfg(test)]')]
    while lines and lines[-1] == '':
        lines.pop()
    assert all(32 <= ord(c) < 127 for line in lines for c in line), f
    names = []
    for i in range(0, len(lines), CHUNK):
        part = lines[i:i + CHUNK]
        name = f'{f}_rs{i // CHUNK}'
        names.append(name)
        out.append(f'/-- `/repo/src/{f}.rs:{i + 1}-{i + len(part)}` -/')
        out.append(f'def {name} : List Str := [')
        out.append(',\n'.join(map(literal, part)) + ']\n')
    out.append(f'/-- `/repo/src/{f}.rs:1-{len(lines)}` -/')
    out.append(f'def {f}_rs : List Str := ' + ' ++ '.join(names) + '\n')

out.append('end Verif.Source')
open('/verif/lean/Verif/Source/Text.lean', 'w').write('\n'.join(out) + '\n')
