#!/usr/bin/env python3
"""Faithfulness test (not a proof): run the Lean model of the generator on the repository's .dsl files and compare the text
it emits with the checked-in parser.rs files, modulo rustfmt's whitespace, trailing commas and closure braces.
Usage: python3 tools/compare_generated.py   (from /verif, after lake build)"""
import glob, re, shutil, subprocess
shutil.copy('/verif/tools/run_generator.lean.txt', '/tmp/run_generator.lean')
pairs = [('/repo/parser/Grammar.dsl', '/repo/parser/src/parser.rs')]
for d in range(1, 12):
    dsl = glob.glob('/repo/examples/example_%d/*.dsl' % d) + glob.glob('/repo/examples/example_%d_*/*.dsl' % d)
    rs = glob.glob('/repo/examples/example_%d_*parser/src/parser.rs' % d)
    pairs.append((dsl[0], rs[0]))
def norm(t):
    t = re.sub(r'//[^\n]*', '', t)
    t = re.sub(r'\s+', '', t).replace(',)', ')').replace(',]', ']')
    t = t.replace('position:u32|{', 'position:u32|').replace('position)};', 'position);')
    return t
def fns(t):
    return [re.sub(r'\}\[.*$', '}', x) for x in re.findall(r'pubfn.*?(?=#\[allow|$)', norm(t))]
for dsl, rs in pairs:
    out = subprocess.run(['lake', 'env', 'lean', '--run', '/tmp/run_generator.lean', dsl], cwd='/verif/lean',
                         capture_output=True, text=True).stdout
    a, b = fns(open(rs).read()), fns(out)
    bad = [(x, y) for x, y in zip(a, b) if x != y]
    print(dsl, len(a), len(b), 'OK' if a == b else 'DIFFERENT')
    for x, y in bad[:3]:
        print('  repo ', x[-400:]); print('  model', y[-400:])
