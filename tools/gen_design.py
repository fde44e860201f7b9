import json,re
rows=[json.loads(l) for l in open('/verif/properties.jsonl')]
man={c['property']:c for c in json.load(open('/verif/MANIFEST.json'))['claims']}
how=json.load(open('/verif/tools/design_how.json'))
head=open('/verif/tools/design_head.md').read()
out=[head,'\n## Properties: what is modelled and how it is proved\n\n',
'The full statements are in `properties.jsonl`, the theorem names in `MANIFEST.json`.\n\n']
for r in rows:
    out.append(f"* **{r['id']}** {r['title']}. {how[r['id']]}\n")
out.append('\n'+open('/verif/tools/design_tail.md').read())
open('/verif/DESIGN.md','w').write(''.join(out))
