#!/usr/bin/env python3
"""Copies the documents in the test data of /repo into lean/Verif/Hcl/Docs.lean, and the files into
lean/Verif/Hcl/Texts.lean and lean/Verif/TaskSet/Texts.lean."""
import re

FILES = [
    ('exampleDoc', 'internal/ddl/testdata/example.hcl'),
    ('expectedDoc', 'internal/ddl/testdata/expected.hcl'),
    ('settingsDoc', 'internal/ddl/testdata/settings.hcl'),
    ('dockerDoc', 'testdata/expected.hcl'),
]
TASK_SETS = [
    ('demoText', 'internal/taskset/testdata/demo.hcl'),
    ('measurementsText', 'internal/taskset/testdata/measurements.hcl'),
    ('parserText', 'internal/taskset/parser/testdata/measurements.hcl'),
]
TOKEN = re.compile(r'''\s*(?:(?P<here><<(?P<tag>\w+)\n(?P<body>.*?)^(?P=tag)$)|(?P<str>"(?:[^"\\]|\\.)*")'''
                   r'''|(?P<num>-?\d+)|(?P<word>\w+)|(?P<punct>[{}=\[\],]))''', re.S | re.M)


def tokens(text):
    pos, out = 0, []
    text = text.rstrip()
    while pos < len(text):
        m = TOKEN.match(text, pos)
        assert m, text[pos:pos + 40]
        pos = m.end()
        if m.group('here'):
            out.append(('str', m.group('body')))
        elif m.group('str'):
            s = m.group('str')[1:-1]
            assert '${' not in s and '%{' not in s
            out.append(('str', re.sub(r'\\(.)', lambda k: {'n': '\n'}.get(k.group(1), k.group(1)), s)))
        else:
            out.append((m.lastgroup, m.group(m.lastgroup)))
    return out


def lit(s):
    s = s.replace('\\', '\\\\').replace('"', '\\"').replace('\n', '\\n')
    return 'b!"%s"' % s


def value(ts):
    k, v = ts.pop(0)
    if k == 'str':
        return '.str ' + lit(v)
    if k == 'num':
        return '.num %s' % (v if int(v) >= 0 else '(%s)' % v)
    if v == 'null':
        return '.null'
    if v in ('true', 'false'):
        return '.bool ' + v
    assert v == '['
    items = []
    while ts[0][1] != ']':
        items.append(value(ts))
        if ts[0][1] == ',':
            ts.pop(0)
    ts.pop(0)
    return '.list [%s]' % ', '.join(items)


def body(ts, indent):
    items = []
    while ts and ts[0] != ('punct', '}'):
        k, name = ts.pop(0)
        assert k == 'word'
        if ts[0] == ('punct', '='):
            ts.pop(0)
            items.append('%s.attr %s (%s)' % (indent, lit(name), value(ts)))
            continue
        labels = []
        while ts[0][0] == 'str':
            labels.append(lit(ts.pop(0)[1]))
        assert ts.pop(0) == ('punct', '{')
        inner = body(ts, indent + '  ')
        assert ts.pop(0) == ('punct', '}')
        items.append('%s.block %s [%s] %s' % (indent, lit(name), ', '.join(labels), inner))
    return '[\n%s]' % ',\n'.join(items) if items else '[]'


def main():
    out = ['import Verif.Hcl.Model\n', '/-!', '# The documents in the test data of `/repo`\n',
           'Written by `tools/hcl2lean.py`.', '-/\n', 'namespace Verif.Hcl.Docs', 'open Verif\n']
    for name, path in FILES:
        ts = tokens(open('/repo/' + path).read())
        out.append('/-- %s -/' % path)
        out.append('def %s : List (Item Int) := %s\n' % (name, body(ts, '  ')))
        assert not ts
    out.append('end Verif.Hcl.Docs')
    open('/verif/lean/Verif/Hcl/Docs.lean', 'w').write('\n'.join(out) + '\n')
    texts('Hcl', [(name.replace('Doc', 'Text'), path) for name, path in FILES])
    texts('TaskSet', TASK_SETS)


def texts(package, files):
    out = ['import Verif.Base.Str\n', '/-!', '# The files in the test data of `/repo`\n',
           'Written by `tools/hcl2lean.py`.', '-/\n', 'namespace Verif.%s.Texts' % package, 'open Verif\n']
    for name, path in files:
        lines = open('/repo/' + path).read().splitlines(True)
        out.append('/-- %s -/' % path)
        out.append('def %s : Str := [\n  %s].flatten\n' % (name, ',\n  '.join(lit(x) for x in lines)))
    out.append('end Verif.%s.Texts' % package)
    open('/verif/lean/Verif/%s/Texts.lean' % package, 'w').write('\n'.join(out) + '\n')


main()
