import sys
def addprop(txt):
    p='/verif/tools/props.py'; s=open(p).read()
    m="open('/verif/properties.jsonl','w')"
    i=s.index(m); s=s[:i]+txt.strip()+"\n"+s[i:]; open(p,'w').write(s)
def addclaim(txt):
    open('/verif/tools/claims.py','a').write(txt.strip()+"\n")
def design(row, modelled=None, findings=None, after='| data model |'):
    p='/verif/DESIGN.md'; s=open(p).read()
    i=s.index("\n\n## Trusted base"); s=s[:i]+"\n"+row.strip()+s[i:]
    if modelled:
        j=s.index(after); k=s.index("\n",j); s=s[:k+1]+modelled.strip()+"\n"+s[k+1:]
    if findings:
        j=s.rindex("\n| C"); 
        f=s.index("## Findings"); assert j>f
        k=s.index("\n",j+1); s=s[:k+1]+findings.strip()+"\n"+s[k+1:]
    open(p,'w').write(s)
