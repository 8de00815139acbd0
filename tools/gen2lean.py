#!/usr/bin/env python3
"""Copies the source files of the generator into lean/Verif/Model/GenTexts.lean, one string per line, and the syntax trees that the
reader of Spec/Rs/Reader makes of them (printed by tools/rs_dump.lean.txt) into lean/Verif/Model/GenAst.lean.  That the reader does read
them so is then proved, in Lemmas/Rs/Texts."""
import subprocess, re, textwrap, os
def lit(s):
    out = '"'
    for ch in s:
        out += {'"': '\\"', '\\': '\\\\', '\n': '\\n', '\t': '\\t', '\r': '\\r'}.get(ch, ch)
    return out + '"'
def camel(f):
    x = ''.join(p.capitalize() for p in f.split('_')); return x[0].lower() + x[1:]
gen = ['binary_wo', 'symbol_table', 'cycle_detector', 'constructor', 'lib']
o = ['import Verif.Model.Gen.Text', '', '/-! Generated by tools/gen2lean.py: the text of the source files of the generator, one string per line. -/', 'namespace PP.GenTexts', '']
for f in gen:
    t = open('/repo/generator/src/%s.rs' % f, newline='').read()
    ps = t.splitlines(keepends=True)
    assert ''.join(ps) == t
    o.append('/-- generator/src/%s.rs:1-%d -/' % (f, t.count('\n')))
    o.append('def %s : List String := [' % camel(f))
    o.append(',\n'.join('  ' + lit(p) for p in ps) + ']')
    o.append('')
o.append('end PP.GenTexts')
open('/verif/lean/Verif/Model/GenTexts.lean', 'w').write('\n'.join(o) + '\n')
files = ['parser/src/keys.rs', 'parser/src/publisher.rs'] + ['generator/src/%s.rs' % f for f in gen]
open('/tmp/rs_dump.lean', 'w').write(open('/verif/tools/rs_dump.lean.txt').read())
dump = subprocess.run(['lake', 'env', 'lean', '--run', '/tmp/rs_dump.lean'] + files, cwd='/verif/lean', capture_output=True, text=True)
assert 'FAIL' not in dump.stdout and dump.stdout, dump.stdout[-300:] + dump.stderr[-300:]
parsed = []; body = None
for l in dump.stdout.split('\n'):
    if l.startswith('@file '): parsed.append((l[6:], [])); body = None
    elif l.startswith('@fn '): body = []; parsed[-1][1].append(('fn', l[4:], body))
    elif l.startswith('@item '): parsed[-1][1].append(('item', l[6:], None)); body = None
    elif body is not None and l: body.append(l)
def wrap(b):
    out = []
    for i, l in enumerate(b):
        out += textwrap.wrap(l, 140, break_long_words=False, break_on_hyphens=False, initial_indent='  ' if i == 0 else '    ', subsequent_indent='      ')
    return '\n'.join(out).replace('␣', ' ')
o = ['import Verif.Spec.Rs.Syntax', '', '/-! Generated by tools/gen2lean.py: the syntax trees of the source files of the generator. -/', 'namespace PP.Rs.Ast', 'open PP.Gen', '']
seen = {}; used = {}; allfns = []; muts = {}
for f, its in parsed:
    src = open('/repo/' + f).read().split('\n'); refs = []
    for k, x, b in its:
        if k == 'item': refs.append(x); continue
        n = x
        while n in seen: n += "'"
        seen[n] = 1
        short = x.split('.')[-1]
        ws = [i + 1 for i, l in enumerate(src) if re.search(r'\bfn ' + re.escape(short) + r'\b', l)]
        i = used.get((f, short), 0); used[(f, short)] = i + 1
        o.append('/-- %s:%d -/' % (f, ws[i] if i < len(ws) else ws[-1]))
        o.append('def %s : Fn :=\n%s\n' % (n, wrap(b)))
        refs.append('.fn ' + n); allfns.append((x, n))
        h = b[0].split(', some (.block')[0].split('none⟩')[0]
        rc = re.search(r', \.(\w+), \[', h).group(1)
        muts[n] = '[%s]' % ', '.join({'none': [], 'refMut': ['true'], 'ref': ['false'], 'val': ['false']}[rc] + re.findall(r'", (true|false)\)', h))
    o.append('/-- The items of %s. -/' % f)
    o.append('def %sItems : List Item :=\n  [%s]\n' % (camel(f.split('/')[-1][:-3]), '\n'.join(textwrap.wrap(', '.join(refs), 140, subsequent_indent='   '))))
o.append('/-- The items of all of them. -/\ndef generator : List Item := ' + ' ++ '.join(camel(f.split('/')[-1][:-3]) + 'Items' for f, _ in parsed) + '\n')
o.append('end PP.Rs.Ast')
open('/verif/lean/Verif/Model/GenAst.lean', 'w').write('\n'.join(o) + '\n')
os.makedirs('/verif/lean/Verif/Lemmas/Rs/Texts', exist_ok=True)
# one after the other, and after the other modules that need much memory
prev = ['import Verif.Props.Checked', 'import Verif.Props.ExecuteCalc']
for f, _ in sorted(parsed, key=lambda x: -len(open('/repo/' + x[0]).read())):
    b = f.split('/')[-1][:-3]; t = ('GenTexts.' if f.startswith('generator') else 'CoreTexts.') + camel(b)
    o = ['import Verif.Spec.Rs.Reader', 'import Verif.Model.GenAst', 'import Verif.Model.GenTexts', 'import Verif.Model.CoreTexts', 'import Verif.Lemmas.FastText'] + prev + ['',
      '/-! Generated by tools/gen2lean.py: %s, read as Rust. -/' % f, 'namespace PP.Rs', 'open PP.Gen', '',
      'fast_file %s %sCodes' % (t, camel(b)), '', 'set_option maxRecDepth 100000 in', 'theorem read_%s : readFile (fileOf %s) = some Ast.%sItems := by' % (camel(b), t, camel(b)), '  rw [%sCodes_eq]' % camel(b), '  decide +kernel', '', 'end PP.Rs']
    c = camel(b)
    prev = ['import Verif.Lemmas.Rs.Texts.' + c[0].upper() + c[1:]]
    open('/verif/lean/Verif/Lemmas/Rs/Texts/%s.lean' % (c[0].upper() + c[1:]), 'w').write('\n'.join(o) + '\n')
# Lemmas/Rs/Prog.lean: which function a name is
o = ['import Verif.Spec.Rs.Interp', 'import Verif.Model.GenAst', 'import Verif.Lemmas.Rs.Attr', '', '/-! Generated by tools/gen2lean.py: which function of the generator a name stands for -/', 'namespace PP.Rs', '',
  '/-- The generator as a program. -/', 'def World.gen (ord : List Val → List Val) : World := ⟨Ast.generator, ord⟩', '',
  'theorem World.gen_ord (ord) : (World.gen ord).ord = ord := rfl', '', 'variable (ord : List Val → List Val)', '']
count = {}
for x, n in allfns: count[x] = count.get(x, 0) + 1
o.append('theorem fn?_gen {ty name f} (h : fns Ast.generator ty name = [f]) : (World.gen ord).fn? ty name = some f := by simp [World.fn?, World.gen, h]\n')
for x, n in allfns:
    if count[x] > 1: continue
    k = '(some n!"%s") n!"%s"' % tuple(x.split('.')) if '.' in x else 'none n!"%s"' % x
    o.append('@[rsfn] theorem fn_%s : (World.gen ord).fn? %s = some Ast.%s := fn?_gen ord (by decide +kernel)' % (x.replace('.', '_'), k, n))
    o.append('@[rsfn] theorem muts_%s : Ast.%s.muts = %s := rfl' % (x.replace('.', '_'), n, muts[n]))
# the paths that are called and are not functions of the program
fns = {x for x, _ in allfns}; tuples = {re.search(r'"(\w+)"', x).group(1) for _, its in parsed for k, x, _ in its if k == 'item' and 'tupleStruct' in x}
text = ' '.join(' '.join(b) for _, its in parsed for k, _, b in its if k == 'fn')
o += ['', 'theorem nofn_gen {ty name} (h : fns Ast.generator ty name = []) : (World.gen ord).fn? ty name = none := by simp [World.fn?, World.gen, h]']
for q in sorted(set(re.findall(r'\.call\s+\[([^\]]*)\]', text))):
    ps = re.findall(r'"(\w+)"', q); x = '.'.join(ps)
    if x in fns: continue
    k = '(some n!"%s") n!"%s"' % tuple(ps) if len(ps) == 2 else 'none n!"%s"' % ps[0]
    o.append('@[rsfn] theorem nofn_%s : (World.gen ord).fn? %s = none := nofn_gen ord (by decide +kernel)' % ('_'.join(ps), k))
    if len(ps) == 1: o.append('@[rsfn] theorem isTuple_%s : (World.gen ord).isTuple n!"%s" = %s := by show List.any Ast.generator _ = _; decide +kernel' % (ps[0], ps[0], 'true' if ps[0] in tuples else 'false'))
o += ['', 'end PP.Rs']
open('/verif/lean/Verif/Lemmas/Rs/Prog.lean', 'w').write('\n'.join(o) + '\n')
