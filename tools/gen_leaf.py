import re
src=open('/repo/leaf_elements.go').read()
names=re.findall(r'^\t"([A-Z0-9]+)",$',src,re.M)
out=["""import Verif.Go.Str
/-
Generated by tools/gen_leaf.py from /repo/leaf_elements.go.
-/
namespace Ofx

/-- leaf_elements.go 11-344 `ofxLeafElements`. -/
def leafElements : List Str := ["""]
row=[]
lines=[]
for n in names:
    row.append('"%s".toList'%n)
    if len(row)==6:
        lines.append("  "+", ".join(row)); row=[]
if row: lines.append("  "+", ".join(row))
out.append(",\n".join(lines)+"]\n\nend Ofx\n")
open('/verif/lean/Verif/Gen/LeafElements.lean','w').write("\n".join(out))
print(len(names))
