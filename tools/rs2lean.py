#!/usr/bin/env python3
"""Copies the checked-in parser.rs and rules.rs files into lean/Verif/Model/Texts.lean, one string per line
(the strings joined are the files, byte for byte; the script checks that)."""
import glob, re
def lit(s):
    out = '"'
    for ch in s:
        if ch == '"': out += '\\"'
        elif ch == '\\': out += '\\\\'
        elif ch == '\n': out += '\\n'
        elif ch == '\t': out += '\\t'
        elif ch == '\r': out += '\\r'
        else: out += ch
    return out + '"'
def pieces(t):
    ps = t.splitlines(keepends=True)
    assert ''.join(ps) == t
    return ps
files = [('dsl', '/repo/parser/src')]
for d in range(1, 12):
    files.append(('ex%d' % d, glob.glob('/repo/examples/example_%d_*parser/src' % d)[0]))
o = ['import Verif.Model.Gen.Text', '', '/-! Generated by tools/rs2lean.py: the text of the checked-in parsers, one string per line. -/', 'namespace PP.Texts', '']
for name, d in files:
    for f in ('parser', 'rules'):
        t = open(d + '/' + f + '.rs', newline='').read()
        n = t.count('\n')
        o.append('/-- %s/%s.rs:1-%d -/' % (d[len('/repo/'):], f, n))
        o.append('def %s%s : List String := [' % (name, f.capitalize()))
        o.append(',\n'.join('  ' + lit(p) for p in pieces(t)) + ']')
        o.append('')
o.append('end PP.Texts')
open('/verif/lean/Verif/Model/Texts.lean', 'w').write('\n'.join(o) + '\n')
# one module per parser (checked by the kernel), and the theorems
def module(name):
    N = name.capitalize()
    return f'''import Verif.Model.Texts
import Verif.Lemmas.Checked
import Verif.Lemmas.Files.{N}

/-! Generated by tools/rs2lean.py. -/
namespace PP.Gen
open Text

set_option maxRecDepth 100000 in
theorem {name}Text : IsTextOf (fileOf Texts.{name}Rules) (fileOf Texts.{name}Parser) {N}.all {N}.body (fun r => utf8Of (Files.{name}Name r))
    (Files.{name}Enum.map utf8Of) := textCheck_ok (by decide +kernel)

set_option maxRecDepth 100000 in
theorem {name}Current : UpToDate (fileOf Files.{name}File) (fileOf Texts.{name}Rules) (fileOf Texts.{name}Parser) :=
  up_to_date {name}Ok (by decide +kernel) (by unfold DGrammar.NoSetName; decide +kernel) {name}Text

end PP.Gen
'''
import os
os.makedirs('/verif/lean/Verif/Lemmas/Texts', exist_ok=True)
props = ['import Verif.Lemmas.Texts.%s' % n.capitalize() for n, _ in files]
props += ['', '''/-! # C75: the checked-in parsers, read as Rust

`Texts.…` (Model/Texts.lean) are the checked-in rules.rs and parser.rs, byte for byte, one string per line (copied by tools/rs2lean.py, which
also wrote this file).  Read as Rust (Spec/RustText.lean) they define exactly the rules and bodies of Model/Grammars, about which C24-C26, C62-C66
and others speak; and the generator still makes the same parser of the checked-in grammar files. -/
namespace PP.Gen
open Text PP.Run
''']
for name, _ in files:
    N = name.capitalize()
    what = 'the parser of grammar files' if name == 'dsl' else 'example ' + name[2:]
    T = 'dsl' if name == 'dsl' else 'example' + name[2:]
    props.append(f'''/-- C75, {what}: the checked-in files define these rules, with these bodies. -/
theorem C75_{T}_text : IsTextOf (fileOf Texts.{name}Rules) (fileOf Texts.{name}Parser) {N}.all {N}.body (fun r => utf8Of (Files.{name}Name r))
    (Files.{name}Enum.map utf8Of) := {name}Text

/-- C75, {what}: the checked-in files are up to date. -/
theorem C75_{T}_up_to_date : UpToDate (fileOf Files.{name}File) (fileOf Texts.{name}Rules) (fileOf Texts.{name}Parser) := {name}Current
''')
    open('/verif/lean/Verif/Lemmas/Texts/%s.lean' % N, 'w').write(module(name))
props.append('end PP.Gen')
open('/verif/lean/Verif/Props/Checked.lean', 'w').write('\n'.join(props) + '\n')
