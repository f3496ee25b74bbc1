#!/usr/bin/env python3
"""Generate lean/Verif/Conformance/{Address,Tx1,Tx2,Create,Create2}.lean from the unit tests of /repo.

The test files are parsed as text (ast); nothing is imported or run.
"""
import ast, os
R='/repo/bitcoin_toolset/test/'
OUT=os.path.join(os.path.dirname(__file__),'..','lean','Verif','Conformance')

class Null(ast.NodeTransformer):
    def visit_Name(self,n):
        m={'null':None,'true':True,'false':False}
        return ast.Constant(m[n.id]) if n.id in m else n
def ev(node,env):
    node=ast.fix_missing_locations(Null().visit(node))
    try: return ast.literal_eval(node)
    except Exception: pass
    if isinstance(node,ast.Call) and isinstance(node.func,ast.Attribute):
        o=node.func.value
        if node.func.attr=='strip': return ev(o,env).strip()
        if node.func.attr=='hex' and isinstance(o,ast.Name): return env[o.id].hex()
    raise ValueError(ast.dump(node)[:80])
def tests(f):
    src=open(R+f).read()
    for fn in ast.parse(src).body:
        if isinstance(fn,ast.FunctionDef) and fn.name.startswith('test'):
            env={}
            for s in fn.body:
                if isinstance(s,ast.Assign) and isinstance(s.targets[0],ast.Name):
                    try: env[s.targets[0].id]=ev(s.value,env)
                    except ValueError: pass
            yield fn,env
def S(x):
    assert all(32<=ord(c)<127 and c not in '"\\' for c in x), x
    return 'py"%s"'%x
def I(n): return str(n) if n>=0 else '(%d)'%n
def P(v):
    if v is None: return '.none'
    if v is True or v is False: return '.bool %s'%str(v).lower()
    if isinstance(v,int): return '.int %s'%I(v)
    if isinstance(v,str): return '.str %s'%S(v)
    if isinstance(v,list): return '.list [%s]'%', '.join(P(x) for x in v)
    if isinstance(v,dict): return '.dict [%s]'%', '.join('(%s, %s)'%(S(k),P(x)) for k,x in v.items())
    raise ValueError(v)
def L(l): return '[%s]'%', '.join(S(x) for x in l)
def O(x,f): return 'none' if x is None else '(some %s)'%(f(x) if not isinstance(x,(dict,)) else '(%s)'%f(x))
def wrap(s,n=95):
    out=[];ind='  '
    line=''
    for w in s.split(' '):
        if len(line)+1+len(w)>n and line: out.append(line); line=ind+w
        else: line=(line+' '+w) if line else w
    out.append(line)
    return '\n'.join(out)
def write(name,imports,doc,body):
    head='\n'.join('import %s'%i for i in imports)
    open(os.path.join(OUT,name+'.lean'),'w').write(
      '%s\n\n/-!\n# %s\n\nGenerated by `tools/vectors.py`: do not edit.  Tests, not proofs.\n-/\n\nset_option linter.all false\nset_option maxRecDepth 100000\n\nnamespace BT.Conformance\n\nopen BT.Concrete\n\n%s\n\nend BT.Conformance\n'%(head,doc,'\n\n'.join(body)))
def asserts(fn):
    for s in fn.body:
        if isinstance(s,ast.Assert) and isinstance(s.test,ast.Compare): yield ast.unparse(s.test.left),s.test.comparators[0]
def main():
    b=[]
    for fn,env in tests('test_address.py'):
        k=env['private_key_hex']
        if 'private_key_hex_2' in env:
            b.append('/-- test_address.py: %s -/\nexample : Xreal.formatKey %s =\n    .ok %s := by decide +kernel'%(fn.name,S(k),S(env['private_key_hex_2'])))
        a=[c for l,c in asserts(fn) if l=='x'][0].value
        b.append('/-- test_address.py: %s -/\nexample : privateKeyToAddress Xreal\n    %s = .ok %s := by decide +kernel'%(fn.name,S(k),S(a)))
    for fn,env in tests('test_private_key.py'):
        x=[c for l,c in asserts(fn) if l=='x'][0].value
        if fn.name.endswith('reverse'):
            b.append('/-- test_private_key.py: %s -/\nexample : wifToPrivateKey Xreal %s =\n    .ok %s := by decide +kernel'%(fn.name,S(env['private_key_wif']),S(x)))
        else:
            b.append('/-- test_private_key.py: %s -/\nexample : privateKeyToWif Xreal %s =\n    .ok %s := by decide +kernel'%(fn.name,S(env['private_key_hex']),S(x)))
    write('Address',['Verif.Conformance.Base'],'`test_address.py`, `test_private_key.py`',b)
    b=[]
    for fn,env in tests('test_transaction.py'):
        ins='[%s]'%', '.join('(%s, %s, %s, %s)'%(S(x['address']),S(x['transaction_id']),I(x['previous_output_index']),S(x['bitcoin_amount'])) for x in env['inputs_data'])
        outs='[%s]'%', '.join('(%s, %s)'%(S(x['address']),S(x['bitcoin_amount'])) for x in env['outputs_data'])
        asr=dict(asserts(fn))
        fee=ev(asr['tx_unsigned.fee'],env) if 'tx_unsigned.fee' in asr else None
        un=env['tx_unsigned_expected'] if 'tx_unsigned.to_dict()' in asr else None
        sg=env['tx_signed_expected'] if 'tx_signed.to_dict()' in asr else None
        t='example : txTest %s %s %s %s %s %s %s %s %s = true := by decide +kernel'%(ins,outs,O(fee,I),O(un,P),L(env['private_keys_hex']),O(env['random_values_hex'],L),O(sg,P),O(env['tx_signed_hex_expected'],S),O(env['txid_expected'],S))
        b.append('/-- test_transaction.py: %s -/\n'%fn.name+wrap(t))
    write('Tx1',['Verif.Conformance.Address','Verif.Conformance.Base'],'`test_transaction.py`, first part',b[:9])
    write('Tx2',['Verif.Conformance.Tx1'],'`test_transaction.py`, second part',b[9:])
    b=[]
    for fn,env in tests('test_create_transaction.py'):
        kw={}
        for s in ast.walk(fn):
            if isinstance(s,ast.Call) and isinstance(s.func,ast.Name) and s.func.id=='Namespace':
                for k in s.keywords:
                    try: kw[k.arg]=ast.literal_eval(k.value)
                    except Exception: pass
        opt=lambda k: 'some (%s)'%P(kw[k]) if k in kw else 'none'
        a='⟨some (%s), some (%s), %s, %s⟩'%(P(env['available_inputs_data']),P(env['design']),opt('allow_duplicate_output_address'),opt('change_output_index'))
        exc=None
        for s in ast.walk(fn):
            if isinstance(s,ast.With): exc=ast.unparse(s.items[0].context_expr.args[0])
        if exc:
            e={'OutputValueNotCovered':'outputValueNotCovered','OutputAndFeeValueNotCovered':'outputAndFeeValueNotCovered','DuplicateOutputAddressError':'duplicateOutputAddress','ValueError':'valueError'}[exc]
            t='example : createFails %s .%s = true := by decide +kernel'%(a,e)
        else:
            asr=list(asserts(fn)); d=dict(asr)
            fee=ev(d['tx_unsigned.fee'],env)
            n=ev(d['len(tx_unsigned.inputs)'],env) if 'len(tx_unsigned.inputs)' in d else None
            ia=[c.value for l,c in asr if l.endswith('.bitcoin_amount')] or None
            oa=[c.value for l,c in asr if l.endswith('.satoshi_amount')] or None
            un=env['tx_unsigned_expected'] if 'tx_unsigned.to_dict()' in d else None
            sign='tx_signed' in ast.unparse(fn)
            hx=env['tx_signed_hex_expected'] if 'tx_signed_hex' in d else None
            tx=env['txid_expected'] if 'txid' in d else None
            if 'input_selection_approach' in env['design']:
                # C57: the code ignores this key, so the test of /repo fails on the code of /repo;
                # it passes with the key the code reads.
                d2={('input_selection_approaches' if k=='input_selection_approach' else k):x for k,x in env['design'].items()}
                a2='⟨some (%s), some (%s), %s, %s⟩'%(P(env['available_inputs_data']),P(d2),opt('allow_duplicate_output_address'),opt('change_output_index'))
                b.append('/-- test_create_transaction.py: %s.  As written this test fails: the code does not\nread the key `input_selection_approach` (see C57). -/\n'%fn.name+wrap('example : createTest %s %s %s %s %s %s false [] none none none = false := by decide +kernel'%(a,O(fee,I),O(n,I),O(ia or ['0.00474300','0.00500000'],L) if fn.name.endswith('_4') else O(ia,L),O(oa,lambda l:'[%s]'%', '.join(I(x) for x in l)),O(un,P))))
                a=a2
            t='example : createTest %s %s %s %s %s %s %s %s %s %s %s = true := by decide +kernel'%(a,O(fee,I),O(n,I),O(ia,L),O(oa,lambda l:'[%s]'%', '.join(I(x) for x in l)),O(un,P),str(sign).lower(),L(env['private_keys_hex']),O(env.get('random_values_hex'),L),O(hx,S),O(tx,S))
        b.append('/-- test_create_transaction.py: %s -/\n'%fn.name+wrap(t))
    write('Create',['Verif.Conformance.Tx2'],'`test_create_transaction.py`, first part',b[:5])
    # one after the other: each needs several GB of memory
    write('Create2',['Verif.Conformance.Create'],'`test_create_transaction.py`, second part',b[5:])
main()
