#!/usr/bin/env python3
"""Reads a grammar file of the repository and its checked-in parser and writes
 * Model/Files.lean: the text of every grammar file, cut at the rules, and what the checked-in rules.rs / parser.rs declare;
 * Lemmas/Files/<X>.lean: the concrete syntax tree of the file and the proof that the checks of Lemmas/Gen/Check.lean succeed.
The tree is untrusted: Lean checks that its text is the file."""
import re,os
ROOT='/repo/'
FILES=[('Dsl','parser/Grammar.dsl','parser/src'),
 ('Ex1','examples/example_1/example_1.dsl','examples/example_1_parser/src'),
 ('Ex2','examples/example_2/example_2.dsl','examples/example_2_parser/src'),
 ('Ex3','examples/example_3_basic_maths/example_3_basic_maths.dsl','examples/example_3_basic_maths_parser/src'),
 ('Ex4','examples/example_4_full_maths/example_4_full_maths.dsl','examples/example_4_full_maths_parser/src'),
 ('Ex5','examples/example_5_lr_num/LR_num.dsl','examples/example_5_lr_num_parser/src'),
 ('Ex6','examples/example_6_term_and_fact/term_and_fact.dsl','examples/example_6_term_and_fact_parser/src'),
 ('Ex7','examples/example_7_indirect_lr_num/LR_num_indirect.dsl','examples/example_7_indirect_lr_num_parser/src'),
 ('Ex8','examples/example_8_indirect_lr_3_level/LR_num_indirect_3_level.dsl','examples/example_8_indirect_lr_3_level_parser/src'),
 ('Ex9','examples/example_9_indirect_lr_5_level/LR_num_indirect_5_level.dsl','examples/example_9_indirect_lr_5_level_parser/src'),
 ('Ex10','examples/example_10_basic_bench/example_10_basic_bench.dsl','examples/example_10_basic_bench_parser/src'),
 ('Ex11','examples/example_11_external_rule_call/example_11_external_rule_call.dsl','examples/example_11_external_rule_call_parser/src'),
 ('Json','examples/json_parser/json.dsl',None)]
def lit(s):
    return '"'+s.replace('\\','\\\\').replace('"','\\"').replace('\n','\\n').replace('\t','\\t').replace('\r','\\r')+'"'
class P:
    def __init__(s,t): s.t=t; s.i=0
    def at(s,c): return s.t.startswith(c,s.i)
    def eat(s,c): assert s.at(c),(c,s.t[s.i:s.i+40]); s.i+=len(c)
    def ws(s):
        j=s.i
        while s.i<len(s.t) and s.t[s.i] in ' \n\r\t': s.i+=1
        return s.t[j:s.i]
    def name(s):
        m=re.compile(r'[A-Za-z][A-Za-z_]*').match(s.t,s.i); assert m,s.t[s.i:s.i+40]
        s.i=m.end(); return m.group()
def B(s): return '[]' if s=='' else '['+', '.join(str(ord(c)) for c in s)+']'
def N(s): return B(s)
def term(p):
    t,i=p.t,p.i
    if t[i+2]=="'": p.i+=3; return '.chr %d'%ord(t[i+1])
    if t[i+1]=='\\' and t[i+2] in 'nrt' and t[i+3]=="'": p.i+=4; return '.esc %d'%ord(t[i+2])
    assert t[i+1]=="'"; p.i+=2; return '.eps'
def num(p):
    m=re.compile(r'0x([0-9A-F]+)').match(p.t,p.i)
    if m: p.i=m.end(); return '.hex (%s)'%N(m.group(1))
    m=re.compile(r'[1-9][0-9]*').match(p.t,p.i); p.i=m.end(); return '.int (%s)'%N(m.group())
def bound(p):
    if p.at("'"): return '(.term (%s))'%term(p)
    return '(%s)'%num(p)
def core(p,w0=''):
    if p.at('['):
        p.eat('['); w1=p.ws(); lo=bound(p); p.eat('..'); hi=bound(p); w2=p.ws(); p.eat(']')
        return '.range %s %s %s %s %s'%(B(w0),B(w1),lo,hi,B(w2))
    assert w0==''
    if p.at('('):
        p.eat('('); r=rhs(p); p.eat(')'); return '.sub (%s)'%r
    if p.at("'"): return '.term (%s)'%term(p)
    if p.at('"'):
        j=p.t.index('"',p.i+1); s=p.t[p.i+1:j]; p.i=j+1; return '.str (.quoted (%s))'%N(s)
    if p.at('<'):
        p.eat('<'); n=p.name(); p.eat('>'); return '.ref (%s)'%N(n)
    if p.t[p.i].isdigit(): return '.str (%s)'%num(p)
    n=p.name(); p.eat('('); r=rhs(p); p.eat(')'); return '.hook (%s) (%s)'%(N(n),r)
def nuc(p,w0=''):
    c=core(p,w0); return '.mk (%s) %s'%(c,B(p.ws()))
def atom(p):
    for ch,o in (('&','.and'),('!','.not')):
        if p.at(ch):
            p.eat(ch); return '.pre %s (%s)'%(o,nuc(p,p.ws()))
    n=nuc(p)
    for ch,o in (('+','.plus'),('*','.star'),('?','.opt')):
        if p.at(ch):
            p.eat(ch); return '.post %s (%s) %s'%(o,n,B(p.ws()))
    return '.plain (%s)'%n
def rhs(p):
    w=p.ws(); a=atom(p)
    for ch,o in ((',','.seq'),('/','.choice')):
        if p.at(ch):
            rest=[]
            while p.at(ch):
                p.eat(ch); w2=p.ws(); rest.append((w2,atom(p)))
            s='.one %s (%s)'%(B(rest[-1][0]),rest[-1][1])
            for w2,x in reversed(rest[:-1]): s='.cons %s (%s) (%s)'%(B(w2),x,s)
            return '.chain %s %s (%s) (%s)'%(o,B(w),a,s)
    return '.atom %s (%s)'%(B(w),a)
def rule(p):
    p.eat('<'); n=p.name(); p.eat('>'); w=p.ws()
    if p.at('Inline'): p.eat('Inline'); sep='.inline %s %s'%(B(w),B(p.ws()))
    else: sep='.plain %s'%B(w)
    p.eat('='); r=rhs(p); p.eat(';'); w=p.ws(); cs=[]
    while p.at('#'):
        j=p.t.index('#',p.i+1); b=p.t[p.i+1:j]; p.i=j+1; cs.append('⟨%s, %s⟩'%(N(b),B(p.ws())))
    return '⟨%s, %s, %s, %s, [%s]⟩'%(N(n),sep,r,B(w),', '.join(cs))
model=['import Verif.Model.Parsers\n','/-! Generated by tools/dsl2lean.py: the grammar files of the repository, the enums and the function names of the checked-in parsers. -/',
 'namespace PP\n','/-- The bytes of a string literal. -/\ndef utf8Of (s : String) : List UInt8 := s.toByteArray.data.toList\n','namespace Files\n']
for ns,dsl,src in FILES:
    t=open(ROOT+dsl,newline='').read(); assert t.isascii()
    p=P(t); rules=[]; pieces=[]
    while p.i<len(t):
        j=p.i; rules.append(rule(p)); pieces.append(t[j:p.i])
    low='r'+ns
    model.append('/-- %s:1-%d, one string per rule -/'%(dsl,t.count('\n')+1))
    model.append('def %sFile : List String := [\n  %s]\n'%(ns.lower(),',\n  '.join(map(lit,pieces))))
    if src:
        rs=open(ROOT+src+'/rules.rs').read().split('\n')
        a=next(i for i,l in enumerate(rs) if l.startswith('pub enum Rules'))
        b=next(i for i in range(a,len(rs)) if rs[i].strip().endswith('}'))
        vs=re.findall(r'\w+',' '.join(rs[a:b+1]).split('{')[1])
        model.append('/-- %s/rules.rs:%d-%d -/'%(src,a+1,b+1))
        model.append('def %sEnum : List String := [%s]\n'%(ns.lower(),', '.join(map(lit,vs))))
        ps=open(ROOT+src+'/parser.rs').read()
        fns=re.findall(r'pub fn (\w+)<',ps)
        model.append('/-- %s/parser.rs: the names of the rule functions -/'%src)
        model.append('def %sName : %s → String\n%s\n'%(ns.lower(),ns,'\n'.join('  | .r_%s => %s'%(f,lit(f)) for f in fns)))
    out=['import Verif.Lemmas.Gen.Check\nimport Verif.Model.Files\n','/-! Generated by tools/dsl2lean.py: %s as a concrete syntax tree. -/'%dsl,'namespace PP.Gen\n']
    for k,r in enumerate(rules):
        out.append('def %sRule%d : DRule :=\n  %s'%(ns.lower(),k,r))
    out.append('\ndef %sTree : DGrammar := [%s]\n'%(ns.lower(),', '.join('%sRule%d'%(ns.lower(),k) for k in range(len(rules)))))
    n=ns.lower()
    names=sorted(re.match(r'<(\w+)>',x).group(1) for x in pieces)
    out.append('def %sNames : List Bytes := [%s]\n'%(n,', '.join(map(B,names))))
    if src:
        out.append('''set_option maxHeartbeats 4000000 in
theorem %sOk : FileOk %sTree Files.%sFile %d %sNames Files.%sEnum %s.all %s.body (fun r => utf8Of (Files.%sName r)) where
  text := by decide +kernel
  wf := by decide +kernel
  faithful := by decide +kernel
  closed := by decide +kernel
  calm := by decide +kernel
  left := by decide +kernel
  reach := by decide +kernel
  small := by decide +kernel
  sorted := by decide +kernel
  declared := by decide +kernel
  variants := by decide +kernel
  names := by decide +kernel
  mem := %s.mem_all
  bodies := by decide +kernel
'''%(n,n,n,len(rules),n,n,ns,ns,n,ns))
    out.append('end PP.Gen')
    open('/verif/lean/Verif/Lemmas/Files/%s.lean'%ns,'w').write('\n'.join(out)+'\n')
model.append('end Files\nend PP')
open('/verif/lean/Verif/Model/Files.lean','w').write('\n'.join(model)+'\n')
