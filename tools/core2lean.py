#!/usr/bin/env python3
"""Copies the checked-in core files of a parser crate into lean/Verif/Model/CoreTexts.lean, one string per line
(the strings joined are the files, byte for byte; the script checks that)."""
def lit(s):
    out = '"'
    for ch in s:
        if ch == '"': out += '\\"'
        elif ch == '\\': out += '\\\\'
        elif ch == '\n': out += '\\n'
        elif ch == '\t': out += '\\t'
        elif ch == '\r': out += '\\r'
        else: out += ch
    return out + '"'
def pieces(t):
    ps = t.splitlines(keepends=True)
    assert ''.join(ps) == t
    return ps
core = ['keys', 'source', 'cache', 'publisher', 'context', 'parser_core', 'var_name', 'parse', 'user_state', 'hooked_calls']
ex11 = 'examples/example_11_external_rule_call_parser/src'
files = [('', '/repo/parser/src', core), ('Ex', '/repo/examples/example_1_parser/src', ['context', 'var_name', 'parse']),
  ('Ex11', '/repo/' + ex11, ['user_state', 'hooked_calls'])]
calcs = ['examples/example_1/src', 'examples/example_2/src', 'examples/example_3_basic_maths/src', 'examples/example_4_full_maths/src']
files += [('Calc%d' % (i + 1), '/repo/' + d, ['lib']) for i, d in enumerate(calcs)]
def camel(f): return ''.join(p.capitalize() for p in f.split('_'))
o = ['import Verif.Model.Gen.Text', '', '/-! Generated by tools/core2lean.py: the text of the checked-in core files, one string per line. -/', 'namespace PP.CoreTexts', '']
for name, d, fs in files:
    for f in fs:
        t = open(d + '/' + f + '.rs', newline='').read()
        n = t.count('\n')
        o.append('/-- %s/%s.rs:1-%d -/' % (d[len('/repo/'):], f, n))
        x = name + camel(f)
        o.append('def %s : List String := [' % (x[0].lower() + x[1:]))
        o.append(',\n'.join('  ' + lit(p) for p in pieces(t)) + ']')
        o.append('')
o.append('end PP.CoreTexts')
open('/verif/lean/Verif/Model/CoreTexts.lean', 'w').write('\n'.join(o) + '\n')

# The syntax trees, as the reader of Spec/Mini/Reader reads the files (printed by tools/core_dump.lean.txt) -> Model/CoreAst.lean;
# that the reader does read them so is then proved, in Lemmas/Mini/Texts.
import subprocess, sys
if '--trees' in sys.argv:
    open('/tmp/dump.lean', 'w').write(open('/verif/tools/core_dump.lean.txt').read())
    dump = subprocess.run(['lake', 'env', 'lean', '--run', '/tmp/dump.lean'], cwd='/verif/lean', capture_output=True, text=True).stdout
    assert 'FAIL' not in dump, dump[-300:]
    import re,textwrap
    lines=dump.split('\n')
    files=[];cur=None;body=None
    for l in lines:
        if l.startswith('@file '): files.append((l[6:],[])); body=None
        elif l.startswith('@fn '): body=[]; files[-1][1].append(('fn',l[4:],body))
        elif l.startswith('@item '): files[-1][1].append(('item',l[6:],None)); body=None
        elif body is not None and l: body.append(l)
    o=['import Verif.Spec.Mini.Syntax','','/-! Generated by tools/core2lean.py: the syntax trees of the core files. -/','namespace PP.Mini.Ast','']
    seen={}
    def camel(f): 
        x=''.join(p.capitalize() for p in f.split('_')); return x[0].lower()+x[1:]
    def wrap(b):
        out=[]
        for i,l in enumerate(b):
            w=textwrap.wrap(l,140,break_long_words=False,break_on_hyphens=False,initial_indent='  ' if i==0 else '    ',subsequent_indent='      ')
            out+=w
        return '\n'.join(out).replace('␣', ' ')
    src={f:open('/repo/'+f).read().split('\n') for f,_ in files}
    def pre(f): return ''.join('calc%d_' % (i + 1) for i, d in enumerate(calcs) if f.startswith(d)) or ('ex11_' if f.startswith(ex11) else '')
    def label(f): return pre(f) + f.split('/')[-1][:-3]
    def where(f,name):
        short=name.split('.')[-1]
        return [i+1 for i,l in enumerate(src[f]) if re.search(r'\bfn '+re.escape(short)+r'\b',l)]
    used={}
    for f,its in files:
        refs=[]
        for k,x,b in its:
            if k=='item': refs.append(x); continue
            n=pre(f).capitalize().replace('_','.')+x
            while n in seen: n+="'"
            seen[n]=1
            i=used.get((f,x.split('.')[-1]),0); ws=where(f,x); used[(f,x.split('.')[-1])]=i+1
            # trait declarations in context.rs come first
            if f.endswith('context.rs'): ws=[w for w in ws if w>=70]
            o.append('/-- %s:%d -/'%(f,ws[i] if i<len(ws) else ws[-1]))
            o.append('def %s : Fn :=\n%s\n'%(n,wrap(b)))
            refs.append('.fn '+n)
        o.append('/-- The items of %s. -/'%f)
        o.append('def %sItems : List Item :=\n  [%s]\n'%(camel(label(f)),'\n'.join(textwrap.wrap(', '.join(refs),140,subsequent_indent='   '))))
    o.append('/-- The items of the core. -/\ndef core : List Item := '+' ++ '.join(camel(label(f))+'Items' for f,_ in files[:8])+'\n')
    o.append('end PP.Mini.Ast')
    open('/verif/lean/Verif/Model/CoreAst.lean','w').write('\n'.join(o)+'\n')

# Lemmas/Mini/Core.lean
fns="""usize.from Source.new Source.get_char Source.get_string
BasicCache.new BasicCache.get_current_active_lr_position BasicCache.set_current_active_lr_position BasicCache.insert BasicCache.check BasicCache.check_head BasicCache.set_head BasicCache.reinitialize_eval_set BasicCache.rule_in_involved_set BasicCache.rule_in_eval_set BasicCache.remove_from_eval_set
BasicPublisher.new BasicPublisher.add_node BasicPublisher.connect BasicPublisher.connect_if_not_connected BasicPublisher.set_node_start_position BasicPublisher.set_node_end_position BasicPublisher.set_node_result BasicPublisher.clear_false BasicPublisher.get_node BasicPublisher.get_mut_node BasicPublisher.clear_false_kernel BasicPublisher.len Node.get_children Node.get_string
BasicContext.new BasicContext.get_current_active_lr_position BasicContext.set_current_active_lr_position BasicContext.reinitialize_eval_set BasicContext.reserve_publisher_entry BasicContext.connect BasicContext.create_cache_entry BasicContext.update_publisher_entry BasicContext.check BasicContext.check_head BasicContext.rule_in_involved_set BasicContext.connect_if_not_connected BasicContext.set_head BasicContext.rule_in_eval_set BasicContext.remove_from_eval_set BasicContext.get_publisher
_and_predicate_kernel _and_predicate _not_predicate_kernel _not_predicate _one_or_more_kernel _one_or_more _optional_kernel _optional _ordered_choice_kernel _ordered_choice _sequence_kernel _sequence _subexpression_kernel _subexpression _terminal_kernel _terminal _zero_or_more_kernel _zero_or_more _string_terminal_kernel_ascii_opt _string_terminal_opt_ascii _ordered_choice_match_range_kernel _ordered_choice_match_range
memoized_behaviour default_behaviour _var_name _var_name_kernel _var_name_indirect_left_recursion convert_vec_to_btree_set _var_name_kernel_growth_function should_go_into_growth_function _var_name_kernel_indirect_left_recursion parse""".split()
o=['import Verif.Spec.Mini.Interp','import Verif.Model.CoreAst','','/-! Programs that contain the functions of the core (generated by tools/core2lean.py) -/','namespace PP.Mini','',
'/-- Whether `UserState` is a tuple struct. -/','def Prog.userTuple (Q : Prog) : Bool := Q.contains (.tupleStruct n!"UserState")','',
'/-- The functions of these names are those of the core. -/','structure HasCore (Q : Prog) : Prop where']
def fld(f): return 'f_'+f.replace('.','_').lstrip('_') if False else 'f_'+f.replace('.','_')
def key(f):
    if '.' in f:
        t,n=f.split('.'); return '(some n!"%s") n!"%s"'%(t,n)
    return 'none n!"%s"'%f
for f in fns: o.append('  %s : Q.fn? %s = some Ast.%s'%(fld(f),key(f),f))
o.append('  tuple : ∀ x, Q.isTuple x = (x == n!"Key" || (x == n!"UserState" && Q.userTuple))')
o.append('')
o.append('/-- Names that the rest of a program must not define again. -/\ndef coreNames : List (Option Name × Name) :=\n  [%s]\n'%',\n   '.join('(%s, n!"%s")'%(('some n!"%s"'%f.split('.')[0] if '.' in f else 'none'),f.split('.')[-1]) for f in fns))
o.append('theorem fns_append (P P\' : Prog) (ty n) : (P ++ P\' : Prog).fns ty n = P.fns ty n ++ P\'.fns ty n := by simp [Prog.fns, List.filterMap_append]\n')
o.append('theorem fn?_core {P P\' : Prog} {ty n f} (h : P.fns ty n = [f]) (h\' : P\'.fns ty n = []) : (P ++ P\' : Prog).fn? ty n = some f := by\n  simp [Prog.fn?, fns_append, h, h\']\n')
o.append('theorem hasCore {gen : Prog} (h : ∀ x ∈ coreNames, gen.fns x.1 x.2 = []) (ht : ∀ x, x ≠ n!"UserState" → gen.isTuple x = false) :\n    HasCore (Ast.core ++ gen) where')
for f in fns: o.append('  %s := fn?_core (by decide +kernel) (h (%s) (by decide +kernel))'%(fld(f),('some n!"%s", n!"%s"'%tuple(f.split('.')) if '.' in f else 'none, n!"%s"'%f)))
o.append('''  tuple x := by
    have e : ∀ x, Prog.isTuple Ast.core x = (x == n!"Key") := by
      intro x
      rw [Bool.eq_iff_iff]
      simp [Prog.isTuple, Ast.core, Ast.keysItems, Ast.sourceItems, Ast.cacheItems, Ast.publisherItems, Ast.contextItems,
        Ast.parserCoreItems, Ast.varNameItems, Ast.parseItems]
    have ha : ∀ x, Prog.isTuple (Ast.core ++ gen) x = (Prog.isTuple Ast.core x || Prog.isTuple gen x) := by
      intro x
      simp only [Prog.isTuple, List.contains_eq_any_beq, List.any_append]
    by_cases hx : x = n!"UserState"
    · subst hx
      show Prog.isTuple (Ast.core ++ gen) n!"UserState" = (n!"UserState" == n!"Key" || (n!"UserState" == n!"UserState" && Prog.isTuple (Ast.core ++ gen) n!"UserState"))
      rw [beq_self_eq_true, Bool.true_and]; rfl
    · rw [ha, ht x hx, Bool.or_false, e, beq_eq_false_iff_ne.mpr hx, Bool.false_and, Bool.or_false]
''')
o.append('end PP.Mini')
open('/verif/lean/Verif/Lemmas/Mini/Core.lean','w').write('\n'.join(o)+'\n')

# Lemmas/Mini/Texts/*.lean: the kernel reads the files
import os
os.makedirs('/verif/lean/Verif/Lemmas/Mini/Texts', exist_ok=True)
groups = [('Core1', ['keys', 'source', 'userState', 'hookedCalls', 'cache', 'ex11UserState', 'ex11HookedCalls']), ('Core2', ['publisher']), ('Core3', ['context', 'exContext']), ('Core4', ['parserCore']),
  ('Calc1', ['calc1Lib']), ('Calc2', ['calc2Lib']), ('Calc3', ['calc3Lib']), ('Calc4', ['calc4Lib']), ('Core5', ['varName', 'exVarName', 'parse', 'exParse'])]
for g, fs in groups:
    o = ['import Verif.Spec.Mini.Reader', 'import Verif.Model.CoreAst', 'import Verif.Model.CoreTexts', 'import Verif.Spec.Files', '',
      '/-! Generated by tools/core2lean.py: the core files, read as Rust. -/', 'namespace PP.Mini', 'open PP.Gen', '']
    for f in fs:
        a = f[2].lower() + f[3:] if f.startswith('ex') and not f.startswith('ex11') else f
        o += ['set_option maxRecDepth 100000 in', 'theorem read_%s : readFile (fileOf CoreTexts.%s) = some Ast.%sItems := by decide +kernel' % (f, f, a), '']
    o.append('end PP.Mini')
    open('/verif/lean/Verif/Lemmas/Mini/Texts/%s.lean' % g, 'w').write('\n'.join(o) + '\n')
for n in ['dsl'] + ['ex%d' % i for i in range(1, 12)]:
    N = n.capitalize()
    o = ['import Verif.Lemmas.Mini.Check', 'import Verif.Model.Texts', 'import Verif.Model.Files', 'import Verif.Spec.Files', 'import Verif.Model.Parsers', '',
      '/-! Generated by tools/core2lean.py: the generated files of a crate, read as Rust. -/', 'namespace PP.Mini', 'open PP.Gen', '',
      'set_option maxRecDepth 100000 in',
      'theorem %sCrate : crateCheck %s (fileOf Texts.%sRules) (fileOf Texts.%sParser) %s.all %sParser.body' % (n, '(Ast.ex11UserStateItems ++ Ast.ex11HookedCallsItems) [utf8Of "unique_line_cache"]' if n == 'ex11' else 'plainItems []', n, n, N, n),
      '    (fun r => utf8Of (Files.%sName r)) (Files.%sEnum.map utf8Of) %sParser.grammar = true := by decide +kernel' % (n, n, n), '', 'end PP.Mini']
    open('/verif/lean/Verif/Lemmas/Mini/Texts/%s.lean' % N, 'w').write('\n'.join(o) + '\n')
