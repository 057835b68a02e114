"""Generate Lean tables from the literal tables in /repo (parsed as text, not executed)."""
import ast
out=[]
src=open('/repo/pyspectral/bandnames.py').read()
tree=ast.parse(src)
tabs={}; pos={}
for n in tree.body:
    if isinstance(n,ast.Assign) and isinstance(n.targets[0],ast.Subscript):
        k=n.targets[0].slice.value
        if isinstance(n.value,ast.Dict):
            tabs[k]=ast.literal_eval(n.value)
        else:
            tabs[k]={str(i):str(i) for i in range(1,37)}   # line 51: dict comprehension
        pos[k]=(n.lineno,n.end_lineno)
    if isinstance(n,ast.For):
        for i in range(1,37): tabs['generic'][str(i)]='ch%d'%i   # lines 47-48
        pos['genericloop']=(n.lineno,n.end_lineno)
def q(s): return '"'+s+'"'
def ident(k): return 'bn_'+k.replace('-','').lower()
o='''import Verif.Base.Py
/-
Literal tables of pyspectral/bandnames.py, transcribed by tools/gen_tables.py
(the Python file is parsed, not executed).
-/
namespace Verif.Model

'''
for k,t in tabs.items():
    extra = " and lines %d-%d (channel numbers 1..36)"%pos['genericloop'] if k=='generic' else ''
    o+='/-- models pyspectral/bandnames.py:%d-%d%s: BANDNAMES[%r] -/\n'%(pos[k][0],pos[k][1],extra,k)
    o+='def %s : Dict String String := [\n'%ident(k)
    items=list(t.items())
    o+=',\n'.join('  '+', '.join('(%s, %s)'%(q(a),q(b)) for a,b in items[i:i+4]) for i in range(0,len(items),4))
    o+=']\n\n'
o+='/-- models pyspectral/bandnames.py:3-211: the BANDNAMES dictionary -/\ndef BANDNAMES : Dict String (Dict String String) := [\n'
o+=',\n'.join('  (%s, %s)'%(q(k),ident(k)) for k in tabs)+']\n\n'
o+='end Verif.Model\n'
open('/verif/lean/Verif/Model/BandNames.lean','w').write(o)

src=open('/repo/pyspectral/utils.py').read(); tree=ast.parse(src)
g={}
p2={}
atm={}
for n in tree.body:
    if isinstance(n,ast.Assign):
        t=n.targets[0]
        if isinstance(t,ast.Name):
            try: g[t.id]=ast.literal_eval(n.value); p2[t.id]=(n.lineno,n.end_lineno)
            except Exception: pass
        elif isinstance(t,ast.Subscript) and t.value.id=='ATM_CORRECTION_LUT_VERSION':
            atm[t.slice.value]=ast.literal_eval(n.value)
o='''import Verif.Base.Py
/-
Literal tables of pyspectral/utils.py, transcribed by tools/gen_tables.py
(the Python file is parsed, not executed).
-/
namespace Verif.Model

/-- A value of the INSTRUMENTS table: one instrument name or a list of names. -/
inductive Inst where
  | one (name : String)
  | many (names : List String)
  deriving DecidableEq, Repr

'''
def cite(n): return 'pyspectral/utils.py:%d-%d'%p2[n]
o+='/-- models %s -/\ndef INSTRUMENTS : Dict String Inst := [\n'%cite('INSTRUMENTS')
o+=',\n'.join('  (%s, %s)'%(q(k), '.one '+q(v) if isinstance(v,str) else '.many ['+', '.join(map(q,v))+']') for k,v in g['INSTRUMENTS'].items())+']\n\n'
n='INSTRUMENT_TRANSLATION_DASH2SLASH'
o+='/-- models %s -/\ndef INSTRUMENT_TRANSLATION_DASH2SLASH : Dict String String := [\n'%cite(n)
o+=',\n'.join('  (%s, %s)'%(q(k),q(v)) for k,v in g[n].items())+']\n\n'
for n in ['WAVE_LENGTH','WAVE_NUMBER','HTTP_PYSPECTRAL_RSR','RSR_DATA_VERSION_FILENAME','RSR_DATA_VERSION','LUT_URL_PREFIX']:
    o+='/-- models %s -/\ndef %s : String := %s\n\n'%(cite(n),n,q(g[n]))
o+='/-- models pyspectral/utils.py:103-125: aerosol type ↦ (version, version file name) -/\ndef ATM_CORRECTION_LUT_VERSION : Dict String (String × String) := [\n'
o+=',\n'.join('  (%s, (%s, %s))'%(q(k),q(v['version']),q(v['filename'])) for k,v in atm.items())+']\n\n'
o+='/-- models %s -/\ndef AEROSOL_TYPES : List String := [\n'%cite('AEROSOL_TYPES')
o+=',\n'.join('  '+q(v) for v in g['AEROSOL_TYPES'])+']\n\n'
o+='/-- models %s -/\ndef ATMOSPHERES : Dict String Nat := [\n'%cite('ATMOSPHERES')
o+=',\n'.join('  (%s, %d)'%(q(k),v) for k,v in g['ATMOSPHERES'].items())+']\n\n'
r=[n for n in ast.parse(open('/repo/pyspectral/rsr_reader.py').read()).body
   if isinstance(n,ast.Assign) and isinstance(n.targets[0],ast.Name) and n.targets[0].id=='OSCAR_PLATFORM_NAMES'][0]
o+='/-- models pyspectral/rsr_reader.py:%d-%d -/\ndef OSCAR_PLATFORM_NAMES : Dict String String := [\n'%(r.lineno,r.end_lineno)
o+=',\n'.join('  (%s, %s)'%(q(k),q(v)) for k,v in ast.literal_eval(r.value).items())+']\n\n'
o+='''/-- models pyspectral/utils.py:140-143: the URL of one aerosol type -/
def rayleighLutUrl (atype : String) : String :=
  let name := ((Dict.get? [("rayleigh_only", "no_aerosol")] atype).getD atype)
  LUT_URL_PREFIX ++ "_" ++ name ++ ".tgz"

/-- models pyspectral/utils.py:138-143 -/
def HTTPS_RAYLEIGH_LUTS : Dict String String := AEROSOL_TYPES.map fun a => (a, rayleighLutUrl a)

end Verif.Model
'''
open('/verif/lean/Verif/Model/Tables.lean','w').write(o)
