#!/usr/bin/env python3
"""Copies the SQL constants of /repo/internal/pg into lean/Verif/Sql/Texts.lean, byte for byte."""
import re, os
REPO = '/repo/internal/pg'
OUT = os.path.join(os.path.dirname(__file__), '..', 'lean', 'Verif', 'Sql', 'Texts.lean')
def esc(s):
    return s.replace('\\', '\\\\').replace('"', '\\"')
out = ['import Verif.Base.Str', '', '/-!', '# The SQL texts of `/repo/internal/pg` (generated by tools/sql2lean.py)', '-/', '',
       'namespace Verif.Sql.Texts', 'open Verif', '']
for f in sorted(os.listdir(REPO)):
    if not f.endswith('.go') or f.endswith('_test.go'):
        continue
    src = open(os.path.join(REPO, f)).read()
    for m in re.finditer(r'^var (\w+) = `([^`]*)`', src, re.M):
        a = src[:m.start()].count('\n') + 1
        b = src[:m.end()].count('\n') + 1
        out += [f'/-- {f}:{a}-{b} `{m.group(1)}` -/', f'def {m.group(1)} : Str := b!"{esc(m.group(2))}"', '']
    for m in re.finditer(r'query := `([^`]*)` \+', src):
        a = src[:m.start()].count('\n') + 1
        b = src[:m.end()].count('\n') + 1
        out += [f'/-- {f}:{a}-{b}: the text before the name of the sequence -/', f'def legacySequence : Str := b!"{esc(m.group(1))}"', '']
out += ['end Verif.Sql.Texts', '']
open(OUT, 'w').write('\n'.join(out))
