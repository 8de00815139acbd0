#!/usr/bin/env python3
"""Mechanical translation of a generated parser.rs (closure statements) into a Lean `Expr` table.
Usage: translate.py <repo-relative parser.rs> <LeanNamespace>  -> Lean text on stdout"""
import re,sys
path,ns=sys.argv[1],sys.argv[2]
src=open('/repo/'+path).read()
lines=src.split('\n')
fns=[]
i=0
while i<len(lines):
    m=re.match(r'pub fn (\w+)<',lines[i])
    if m:
        name=m.group(1); start=i+1
        j=i
        while lines[j]!='}': j+=1
        fns.append((name,start,j+1,'\n'.join(lines[i:j+1])))
        i=j
    i+=1
def lit(c):
    m=re.match(r"b'(.*)'$",c,re.S).group(1)
    esc={"\\n":10,"\\t":9,"\\r":13,"\\\\":92,"\\'":39,'\\"':34,"\\0":0}
    if m in esc: return esc[m]
    assert len(m)==1,m
    return ord(m)
def strlit(s):
    out=[];k=0
    esc={"n":10,"t":9,"r":13,"\\":92,"'":39,'"':34,"0":0}
    while k<len(s):
        if s[k]=='\\': out.append(esc[s[k+1]]);k+=2
        else: out.append(ord(s[k]));k+=1
    return out
kw={'end','open','where','rule'} - {'rule'}
def rn(n): return 'r_'+n
exprs={}
for name,a,b,body in fns:
    env={}; last=None; invs={}
    body=body[body.index('-> (bool, u32) {')+len('-> (bool, u32) {'):]
    body=re.sub(r'^\s*//.*$','',body,flags=re.M)
    # split statements
    pos=0
    for m in re.finditer(r"let (\w+)\s*(?::[^=]*)?=\s*((?:move \|[^|]*\|\s*\{.*?\n\s*\}|[^;']*(?:b'(?:\\.|[^'\\])'[^;']*|b\"(?:\\.|[^\"\\])*\"[^;']*)*));",body,re.S):
        v,rhs=m.group(1),re.sub(r'\s+',' ',m.group(2)) if not "b'" in m.group(2) and not 'b"' in m.group(2) else m.group(2).strip()
        if v.startswith('involved_set'):
            invs[v]=[x for x in re.findall(r'Rules::(\w+)',rhs)]
            continue
        g=re.match(r'(_\w+)\((.*)\)$',rhs,re.S)
        if rhs.startswith('move'):
            c=re.search(r'\{\s*(\w+)\((.*)\)\s*\}$',rhs,re.S)
            args=[x.strip() for x in c.group(2).split(',') if x.strip()]
            cl=[x for x in args if x.startswith('&closure')]
            if cl: env[v]='.hooked "%s" (%s)'%(c.group(1),env[cl[0][1:]])
            else: env[v]='.inlined .%s'%rn(c.group(1))
        elif not g:
            c=re.match(r'(\w+)\((.*)\)$',rhs,re.S)
            args=[x.strip() for x in c.group(2).split(',') if x.strip()]
            assert args[:5]==['user_state','parent','context','source','position'] and args[5].startswith('&closure')
            env[v]='.hooked "%s" (%s)'%(c.group(1),env[args[5][1:]])
        else:
            f,args=g.group(1),g.group(2)
            if f=='_terminal': env[v]='.terminal %d'%lit(args)
            elif f=='_string_terminal_opt_ascii':
                s=re.match(r'&?b"(.*)"$',args,re.S)
                if s: env[v]='.stringTerminal [%s]'%', '.join(map(str,strlit(s.group(1))))
                else: raise Exception(args)
            elif f=='_ordered_choice_match_range':
                x,y=[t.strip() for t in args.split(',')]
                env[v]='.matchRange %s %s'%(x,y)
            elif f=='_var_name':
                ar=[t.strip() for t in args.split(',') if t.strip()]
                env[v]='.varName .%s'%rn(ar[3])
            elif f=='_var_name_indirect_left_recursion':
                ar=[t.strip() for t in args.split(',') if t.strip()]
                iv=invs[ar[1].lstrip('&')]
                env[v]='.varNameLR [%s] .%s'%(', '.join('.'+rn(x.lower()) for x in iv),rn(ar[4]))
            else:
                nm={'_sequence':'sequence','_ordered_choice':'orderedChoice','_and_predicate':'andPredicate','_not_predicate':'notPredicate','_one_or_more':'oneOrMore','_zero_or_more':'zeroOrMore','_optional':'optional','_subexpression':'subexpression'}[f]
                ar=[t.strip()[1:] for t in args.split(',') if t.strip()]
                env[v]='.%s %s'%(nm,' '.join('(%s)'%env[x] for x in ar))
        last=v
    fin=re.findall(r'(closure_\d+)\(parent, source, position\)\s*\}$',body.strip())
    assert fin and fin[0]==last,(name,fin,last,body)
    exprs[name]=env[last]
print('import Verif.Model.Interp\n\n/-! Generated by tools/translate.py from %s -/\nnamespace PP\n'%path)
print('/-- %s: the rule functions -/'%path)
print('inductive %s where'%ns)
for n,_,_,_ in fns: print('  | %s'%rn(n))
print('  deriving DecidableEq, Repr\n')
print('namespace %s\n'%ns)
print('/-- %s, translated closure by closure (line ranges of the functions on the right). -/'%path)
print('def body : %s → Expr %s'%(ns,ns))
import textwrap
for n,a,b,_ in fns:
    s='  | .%s => -- %s:%d-%d'%(rn(n),path,a,b)
    print(s)
    for l in textwrap.wrap(exprs[n],110,break_long_words=False): print('    '+l)
print('\n/-- all rule functions -/')
print('def all : List %s :='%ns)
ws=textwrap.wrap('[%s]'%', '.join('.'+rn(n) for n,_,_,_ in fns),110)
print('\n'.join('  '+w for w in ws)+'\n')
print('theorem mem_all (r : %s) : r ∈ all := by cases r <;> decide\n'%ns)
print('end %s'%ns)
print('\nend PP')
