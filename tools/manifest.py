import json,re,glob,sys
C=[]
def c(prop,status,theorems,note):
    C.append(dict(property=prop,status=status,theorems=theorems,note=note))
D='Lue.Decomposition.'
c('C01','proved',[D+t for t in ['partitionShapes_succeeds_iff','partitionShapes_tiles','extents_sum']],'any rank')
c('C02','proved',['Lue.Index.'+t for t in ['linear_roundtrip','idxs_roundtrip','linear_rowMajor','linearToShapeIndex_eq']],'any rank')
c('C03','proved',['Lue.Visitor.visitArray_exactly_once_rowMajor','Lue.Visitor.visitArray_nodup'],'any rank')
c('C31','proved',[D+t for t in ['defaultPartitionShape_one_thread','defaultPartitionShape_pos','defaultPartitionShape_fits','defaultPartitionShape_unusable','maxPartitionShape_spec','maxPartitionShape_divided','maxPartitionShape_zero_extent']],'roots in exact arithmetic; includes refutations of the unrestricted claims')
exec(open('/verif/tools/claims.py').read())
names=set()
for f in glob.glob('/verif/lean/Verif/**/*.lean',recursive=True):
    ns=[]
    for l in open(f):
        m=re.match(r'namespace (\S+)',l)
        if m: ns.append(m.group(1))
        m=re.match(r'end (\S+)',l)
        if m and ns and ns[-1]==m.group(1): ns.pop()
        m=re.match(r'(?:@\[[^\]]*\] )?(?:protected )?theorem (\S+)',l)
        if m: names.add('.'.join(ns+[m.group(1)]))
ids=[json.loads(l)['id'] for l in open('/verif/properties.jsonl')]
for x in C:
    for t in x['theorems']:
        if t not in names: print('MISSING',x['property'],t)
have={x['property'] for x in C}
print('no claim:',[i for i in ids if i not in have])
C.sort(key=lambda x:x['property'])
json.dump({'claims':C},open('/verif/MANIFEST.json','w'),indent=1)
