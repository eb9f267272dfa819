import subprocess
names_mod=['__make_enum','__taggable_into_box','__derive_from','__generate_const_sizes','__boxed_into_inner','__from_tagged_box','__ref_from_tagged','__counter_enum','__count_variants','__verify_variants','tagged_box']
names_meta=['generate_tuple_expansion','__expand_tuple','generate_tuple_arm_expansion','__expand_tuple_arm']
def esc(s):
    return '"'+s.replace('\\','\\\\').replace('"','\\"')+'"'
prog='''import Verif.Mbe.Rules
open TB.Mbe TB.Macro
def Atom.s : Atom → String | .ident s => s!"(.ident {repr s})" | .punct s => s!"(.punct {repr s})" | .lit s => s!"(.lit {repr s})"
def Delim.s : Delim → String | .paren => ".paren" | .brace => ".brace" | .bracket => ".bracket"
def Kind.s : Kind → String | .ident => ".ident" | .ty => ".ty" | .tt => ".tt" | .expr => ".expr" | .path => ".path" | .vis => ".vis" | .metaItem => ".metaItem" | .literal => ".literal"
def sepS : Option Atom → String | none => "none" | some a => s!"(some {Atom.s a})"
partial def MP.s : MP → String
  | .tok a => s!".tok {Atom.s a}"
  | .group d ps => s!".group {Delim.s d} [{", ".intercalate (ps.map MP.s)}]"
  | .var x k => s!".var {repr x} {Kind.s k}"
  | .rep ps sep op => s!".rep [{", ".intercalate (ps.map MP.s)}] {sepS sep} {if op == .star then ".star" else ".plus"}"
partial def MB.s : MB → String
  | .tok a => s!".tok {Atom.s a}"
  | .crate => ".crate"
  | .group d ps => s!".group {Delim.s d} [{", ".intercalate (ps.map MB.s)}]"
  | .var x => s!".var {repr x}"
  | .rep ps sep => s!".rep [{", ".intercalate (ps.map MB.s)}] {sepS sep}"
def rules (rs : List Rule) : String := ",\\n".intercalate (rs.map fun r => s!"  ([{", ".intercalate (r.1.map MP.s)}],\\n   [{", ".intercalate (r.2.map MB.s)}])")
def show' (nm : String) (ls : List String) : IO Unit := do
  match (parseText (ls.map String.toList)).bind (macroRules · nm) with
  | none => IO.println "NONE"
  | some rs => IO.println s!"@@{nm}\\n{rules rs}"
'''
for f,ns in (('mod',names_mod),('meta_macros',names_meta)):
    ls=open(f'/repo/src/tagged_box_macro/{f}.rs').read().split('\n')
    prog+='set_option maxRecDepth 100000\n'
    prog+=f'def src_{f} : List String := ('+esc('\n'.join(ls)).replace('\n','\\n')+').splitOn "\\n"\n'
    for n in ns: prog+=f'#eval show\' "{n}" src_{f}\n'
open('/tmp/G.lean','w').write(prog)
r=subprocess.run('cd /verif/lean && lake env lean /tmp/G.lean',shell=True,capture_output=True,text=True)
print(r.stderr[:2000])
cur=None; out={}
for l in r.stdout.split('\n'):
    if l.startswith('@@'): cur=l[2:]; out[cur]=[]
    elif cur: out[cur].append(l)
    else: print(l)
import json; json.dump({k:'\n'.join(v).rstrip() for k,v in out.items()},open('/tmp/rules.json','w'))
for k,v in out.items(): print(k,len('\n'.join(v)))

import json
d=json.load(open('/tmp/rules.json'))
mod=[('__make_enum','makeEnumRules','5-31'),('__taggable_into_box','intoBoxRules','35-102'),('__derive_from','deriveFromRules','106-156'),('__boxed_into_inner','boxedIntoInnerRules','183-265'),('__from_tagged_box','fromTaggedBoxRules','269-377'),('__ref_from_tagged','refFromTaggedRules','381-515'),('__counter_enum','counterEnumRules','519-554'),('__count_variants','countVariantsRules','558-581'),('tagged_box','taggedBoxRules','732-831')]
out='''import Verif.Mbe.Rules
import Verif.Source.ModText

/-!
# The rules of the macros of `src/tagged_box_macro/mod.rs`

The rules as data. The definitions are written out (by `scripts/gen_rules.py`) so that proofs can refer to them; `modText_rules` checks, by
computation in the kernel, that they are what the lexer and parser of `Mbe` make of the file's text.
-/

set_option autoImplicit false

namespace TB.Source

open TB.Mbe TB.Macro

'''
for n,l,r in mod:
    out+=f"/-- `{n}!`. `src/tagged_box_macro/mod.rs:{r}` -/\ndef {l} : List Rule := [\n{d[n]}]\n\n"
out+='''set_option maxRecDepth 100000 in
theorem modText_rules : macrosIn modText
    ['''+', '.join(f'"{n}"' for n,_,_ in mod)+'''] =
    some ['''+', '.join(l for _,l,_ in mod)+'''] := by
  kernel_rfl

end TB.Source
'''
open('/verif/lean/Verif/Source/ModRules.lean','w').write(out)

un=[('__generate_const_sizes','constSizesRules','160-179'),('__verify_variants','verifyVariantsRules','586-593')]
p='/verif/lean/Verif/Source/UnusedRules.lean'
t=open(p).read()
a=t.index('/-- `__generate_const_sizes!`'); b=t.index('set_option maxRecDepth')
t=t[:a]+''.join(f"/-- `{n}!`. `src/tagged_box_macro/mod.rs:{r}` -/\ndef {l} : List Rule := [\n{d[n]}]\n\n" for n,l,r in un)+t[b:]
open(p,'w').write(t)
