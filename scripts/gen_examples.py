"""Writes `Verif/Source/ExampleCode.lean`: the syntax trees of the documentation examples of `tagged_box.rs` and of the tests of `tagged_pointer.rs`, as data."""
import os, re, subprocess, sys
here=os.path.dirname(os.path.abspath(__file__))
lean=os.environ.get('LEAN_DIR', os.path.join(here,'..','lean'))
g=open(os.path.join(here,'gen_code.py')).read()
prog=g[g.index("prog='''")+8:g.index("def rd (f")].replace('\\\\n','\\n').replace('import Verif.Rust.Crate','import Verif.Rust.Client')
prog+='''
def lines (f : String) : IO (List (List Char)) := do
  let s ← IO.FS.readFile f
  pure ((s.splitOn "\\n").map String.toList)
def whole (f : String) : IO (List (List Char)) := do
  let s ← IO.FS.readFile f
  return [s.toList]
#eval show IO Unit from do
  for b in docBlocks (← lines "/repo/src/tagged_box.rs") none do
    match exampleCode b with
    | some ss => IO.println s!"@doc\\n[\\n  {",\\n  ".intercalate (ss.map sS)}]"
    | none => IO.println "NONE"
  match testFns (← whole "/repo/src/tagged_pointer.rs") with
  | some fs => for f in fs do IO.println s!"@test {f.name}\\n{sF f}"
  | none => IO.println "NONE"
'''
open('/tmp/G.lean','w').write(prog)
r=subprocess.run(f'cd {lean} && lake env lean /tmp/G.lean',shell=True,capture_output=True,text=True)
if 'NONE' in r.stdout or not r.stdout.startswith('@'): sys.exit(r.stdout[:2000]+r.stderr[:2000])
items=[]
for l in r.stdout.split('\n'):
    if l.startswith('@'): items.append((l[1:].split(' '),[]))
    else: items[-1][1].append(l)
box=open('/repo/src/tagged_box.rs').read().split('\n')
opens=[i+1 for i,l in enumerate(box) if l.strip()=='/// ```rust']
ptr=open('/repo/src/tagged_pointer.rs').read().split('\n')
out='''import Verif.Rust.Client

/-!
# The examples in the documentation of `TaggedBox`, and the tests of `TaggedPointer`, as syntax trees

Written out (by `scripts/gen_examples.py`) so that proofs can refer to them; `docs_source` and `tests_source` check, by computation in the kernel, that they are what the lexer
and the parser make of the text of the files.
-/

set_option autoImplicit false
set_option maxRecDepth 100000

namespace TB.Rust.Code

open TB.Mbe TB.Macro TB.Rust TB.Source
'''
docs=[]; tests=[]
W=lambda x: f'[.atom (.ident "{x}")]'
for h,b in items:
    b='\n'.join(b).rstrip()
    if h[0]=='doc':
        n=f'doc{len(docs)}'
        out+=f'\n/-- `src/tagged_box.rs:{opens[len(docs)]}` -/\ndef {n} : List Stmt := {b}\n'
        docs.append(n)
    else:
        i=[k for k,l in enumerate(ptr) if re.match(r'\s*fn '+h[1]+r'\(',l)][0]
        attrs=[]; k=i-1
        while ptr[k].strip().startswith('#'):
            attrs.insert(0,ptr[k].strip()); k-=1
        A={'#[test]':W('test'),'#[should_panic]':W('should_panic'),'#[cfg_attr(miri, ignore)]':'[.atom (.ident "cfg_attr"), .group .paren [.atom (.ident "miri"), .atom (.punct ","), .atom (.ident "ignore")]]'}
        b=b.replace('⟨[]','⟨['+', '.join(A[a] for a in attrs)+']',1)
        out+=f'\n/-- `src/tagged_pointer.rs:{k+2}` -/\ndef test_{h[1]} : Fn := {b}\n'
        tests.append('test_'+h[1])
out+='\ntheorem docs_source : (docBlocks boxText none).map exampleCode = ['+', '.join('some '+d for d in docs)+'] := by\n  kernel_rfl\n'
out+='\ntheorem tests_source : testFns pointerText = some ['+', '.join(tests)+'] := by\n  kernel_rfl\n'
out+='\nend TB.Rust.Code\n'
open(os.path.join(lean,'Verif/Source/ExampleCode.lean'),'w').write(out)
