# writes lean/Verif/MasterData.lean: /repo/xml/adesmaster.xml as an element tree (attributes `doc`, elements `doc` and text left out)
import xml.etree.ElementTree as ET
root=ET.parse('/repo/xml/adesmaster.xml').getroot()
def q(s): return 'c! "'+s.replace('\\','\\\\').replace('"','\\"')+'"'
def lean(e):
    a=', '.join('(%s, %s)'%(q(k),q(v)) for k,v in e.attrib.items() if k not in('doc','purpose'))
    k=', '.join(lean(c) for c in e if c.tag!='doc')
    return '.mk (%s) none [%s] [%s]'%(q(e.tag),a,k)
out=['''import Verif.Xml
/-!
  GENERATED by tools/genmaster.py: /repo/xml/adesmaster.xml, the sections
  `XSDTypes` (lines 511-1551), `XSDElementTypes` (1559-1714) and
  `PSVObservationFields` (1717-1823), as element trees.  Text, comments, `doc`
  elements and `doc`/`purpose` attributes (documentation) are left out.
-/
namespace Verif.Master
open Verif Verif.Xml
''']
names=[]
def chunk(tag,kids,i,doc):
    parts=[]
    for j in range(0,len(kids),12):
        n='d%d_%d'%(i,j//12)
        out.append('def %s : List Elem := [\n  %s]\n'%(n,',\n  '.join(lean(k) for k in kids[j:j+12])))
        parts.append(n)
    out.append('/-- %s -/\ndef sec%d : Elem := .mk (%s) none [] (%s)\n'%(doc,i,q(tag),' ++ '.join(parts)))
    names.append('sec%d'%i)
secs=[c for c in root if c.tag in('XSDTypes','XSDElementTypes','PSVObservationFields')]
for i,s in enumerate(secs):
    chunk(s.tag,[c for c in s if c.tag!='doc'],i,'/repo/xml/adesmaster.xml section %s'%s.tag)
out.append('/-- the root element of /repo/xml/adesmaster.xml -/\ndef adesmaster : Elem := .mk (c! "ades") none [] [%s]\n\nend Verif.Master'%', '.join(names))
open('/verif/lean/Verif/MasterData.lean','w').write('\n'.join(out)+'\n')
