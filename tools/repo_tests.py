import re
H='/repo/examples/'
def tests(f):
    s=open(f).read(); o=[]
    s='\n'.join(l for l in s.split('\n') if not l.strip().startswith('//'))
    for m in re.finditer(r'#\[test\]\s*fn (test\w*)\(\) \{(.*?)\n    \}\n',s,re.S):
        b=m.group(2); line=s[:m.start()].count('\n')+1
        st=re.search(r'let string = "((?:[^"\\]|\\.)*)"',b)
        res=re.search(r'assert_eq!\(\(result.0, result.1\), \((\w+), (\w+)\)\);',b)
        ev=re.search(r'evaluate_tree.*?;\s*assert_eq!\(result, (.*?)\);',b,re.S)
        ex=re.search(r'executor =\s*(.*?);',b,re.S)
        o.append(dict(name=m.group(1),text=st.group(1) if st else None,res=res.groups() if res else None,ev=ev.group(1) if ev else None,ex=re.sub(r'\s+',' ',ex.group(1)),body=b))
    return o
out=[]
w=out.append
w('''import Verif.Model.Parsers
import Verif.Model.Hooked
import Verif.Model.Calc.Calc1
import Verif.Model.Calc.Ab
import Verif.Model.Calc.Maths

/-! # The repository's own tests, in the model

Not properties, but a check of the model against what the developers observed of the code: for every test of the examples that parses a given text
(and evaluates the tree, or compares it with an expected one), the model gives the result the test asserts.  The name of the test stands before each line.  Left out: `test_16` of
examples 3 and 4 (the kernel takes half a minute for each; they hold too) and the tests of parser/tests that read files (C68 and C75 treat these files). -/
namespace PP

/-- A test: a call of `_var_name` or `_var_name_indirect_left_recursion` with `Key(0)` at position 0 on a fresh context, the assertion on the truth
value and the position, and what the test does with the tree of nodes. -/
def runsTest {R U : Type} [DecidableEq R] (P : Parser R U) (e : Expr R) (text : String) (b : Bool) (q : Nat) (check : Publisher R → List UInt8 → Bool) : Bool :=
  match eval P ⟨bytesOf text⟩ 300 e 0 0 (St.new P.grammar P.userInit) with
  | .ok (b', q', st) => b == b' && q == q' && check st.pub (bytesOf text)
  | _ => false

/-- Nothing more is asserted. -/
def noCheck {R : Type} : Publisher R → List UInt8 → Bool := fun _ _ => true

/-- `assert_eq!(evaluate_tree(publisher, &string), v)`; `evaluate_tree` begins with `clear_false`. -/
def evaluatesTo {R α : Type} [BEq α] (grammar : R) (evaluate : Publisher R → List UInt8 → Nat → Out α) (v : α) : Publisher R → List UInt8 → Bool :=
  fun t src => match t.clearFalse grammar 300 with
    | .ok t => (match evaluate t src 300 with | .ok x => x == v | _ => false)
    | _ => false

/-- `assert_eq!(expected_tree, result_tree)`, the expected tree made by `add_node` and `connect`. -/
def treeIs {R : Type} [DecidableEq R] (grammar : R) (steps : List (R × Nat × Nat × Nat)) : Publisher R → List UInt8 → Bool := fun t _ =>
  let expected := steps.foldlM (fun p (x : R × Nat × Nat × Nat) => do
    let (k, p) ← Publisher.addNode p x.1 x.2.1 x.2.2.1 true
    p.connect x.2.2.2 k) (Publisher.new grammar)
  match expected with
  | .ok p => (match Publisher.eq 300 p t with | .ok b => b | _ => false)
  | _ => false
''')
def lit(s): return '"'+s+'"'
def block(ex,f,parser,ty,evalf):
    w(f'\n/-! ## {f} -/')
    for t in tests('/repo/'+f):
        if t['text'] is None or t['res'] is None: print('skip',f,t['name']); continue
        if t['name']=='test_16': print('costly',f); continue
        text=t['text'].encode().decode('unicode_escape')
        q=str(len(text)) if t['res'][1]=='src_len' else t['res'][1]
        m=re.search(r'Rules::(\w+)',t['ex']); rule='.r_'+re.sub(r'(?<!^)([A-Z])',r'_\1',m.group(1)).lower()
        if 'indirect' in t['ex']:
            inv=re.search(r'\[(.*?)\]\.to_vec',t['body']).group(1)
            inv='['+', '.join('.r_'+x.strip().replace('Rules::','').lower() for x in inv.split(','))+']'
            e=f'(.varNameLR {inv} {rule})'
        else: e=f'(.varName {rule})'
        chk='noCheck'
        if t['ev']: chk=f'(evaluatesTo .r_grammar {evalf} '+(f"(bytesOf {t['ev']})" if t['ev'].startswith('"') else f"({t['ev']})")+')'
        if 'expected_tree' in t['body']:
            steps=[];key={}
            adds=re.findall(r'let (\w+) = expected_tree\.add_node\(Rules::(\w+), (\d+), (\d+), (true|false)\);\s*expected_tree\.connect\((\w+(?:\(0\))?), (\w+)\);',t['body'])
            assert len(adds)==len(re.findall('add_node',t['body'])),(t['name'])
            for i,(k,r,a,b,res,p,c) in enumerate(adds):
                assert c==k and res=='true'
                key[k]=i+1
                steps.append(f'(.r_{r.lower()}, {a}, {b}, {0 if p=="Key(0)" else key[p]})')
            chk='(treeIs .r_grammar ['+', '.join(steps)+'])'
        w(f"-- {t['name']}\nexample : runsTest {parser} {e} {lit(t['text'])} {t['res'][0]} {q} {chk} = true := by decide +kernel")
block(1,'examples/example_1/src/lib.rs','ex1Parser','Ex1','(calc1Tree true)')
block(2,'examples/example_2/src/lib.rs','ex2Parser','Ex2','(fun t _ n => abTree t n)')
block(3,'examples/example_3_basic_maths/src/lib.rs','ex3Parser','Ex3','(mathsTree ex3Maths true)')
block(3,'examples/example_3_basic_maths/src/test_number.rs','ex3Parser','Ex3','(mathsTree ex3Maths true)')
block(4,'examples/example_4_full_maths/src/lib.rs','ex4Parser','Ex4','(mathsTree ex4Maths true)')
block(4,'examples/example_4_full_maths/src/test_number.rs','ex4Parser','Ex4','(mathsTree ex4Maths true)')
for n,d in [(5,'example_5_lr_num'),(6,'example_6_term_and_fact'),(7,'example_7_indirect_lr_num'),(8,'example_8_indirect_lr_3_level'),(9,'example_9_indirect_lr_5_level'),(10,'example_10_basic_bench')]:
    block(n,f'examples/{d}/src/lib.rs',f'ex{n}Parser',f'Ex{n}',None)
block(11,'examples/example_11_external_rule_call_parser/tests/test.rs','ex11Parser','Ex11',None)
block(0,'parser/tests/tests_parser_basic.rs','dslParser','Dsl',None)
w('\nend PP')
open('/verif/lean/Verif/Props/RepoTests.lean','w').write('\n'.join(out)+'\n')
