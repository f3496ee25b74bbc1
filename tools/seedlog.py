"""Write seeded/LOG.jsonl from the results of the seeded-bug runs (scratch copies outside /verif)."""
import json
TIGHT={26:['C10_public_key_address','C38_right_address','C12_wif_layout'],38:['C63_validate_positive_integer','C63_types']}
NOTE={26:'no theorem tied an address to the bytes 04 || public key before; the three theorems now do',
 38:'no theorem stated what validate_positive_integer accepts before',
 39:'C63_validate_whole_number is stated in a module that is not rebuilt because the lemma vWholeNumber_nat below it fails already; its statement is false of the edited program (0 must be accepted)',
 40:'control: an edit that does not change behaviour; only the shape of two proofs depends on it'}
import sys,os
extra='/tmp/mut/notes.json'
if os.path.exists(extra):
    d=json.load(open(extra))
    TIGHT.update({int(k):v for k,v in d.get('tight',{}).items()}); NOTE.update({int(k):v for k,v in d.get('note',{}).items()})
last={}
for l in open('/tmp/mut/results.jsonl'):
    r=json.loads(l); last[r['id']]=r
with open('/verif/seeded/LOG.jsonl','w') as f:
    for i in sorted(last):
        r=last[i]
        e=dict(attempt=i,definition='lean/Verif/'+r['definition'],edit=r['edit'],claim_broken=r['claim'],properties=r['expected'],
               lemmas_failed=r['failing_decls'],theorems_failed=r['c_theorems'],theorems_tightened=TIGHT.get(i,[]))
        if i in NOTE: e['note']=NOTE[i]
        f.write(json.dumps(e)+'\n')
print(len(last))
