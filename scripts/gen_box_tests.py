"""Writes `Verif/Source/BoxTests.lean`: the syntax trees of the tests of `tagged_box.rs` that use boxes directly, as data."""
import os, re, subprocess, sys
here=os.path.dirname(os.path.abspath(__file__))
lean=os.environ.get('LEAN_DIR', os.path.join(here,'..','lean'))
g=open(os.environ.get('GEN_CODE', os.path.join(here,'gen_code.py'))).read()
prog=g[g.index("prog='''")+8:g.index("def rd (f")].replace('\\\\n','\\n').replace('import Verif.Rust.Crate','import Verif.Rust.BoxTests')
prog+='''
def lines (f : String) : IO (List (List Char)) := do
  let s ← IO.FS.readFile f
  pure ((s.splitOn "\\n").map String.toList)
#eval show IO Unit from do
  for f in ["new", "new_zst"] do
    match boxTest f (← lines "/repo/src/tagged_box.rs") with
    | some ss => IO.println s!"@{f}\\n[\\n  {",\\n  ".intercalate (ss.map sS)}]"
    | none => IO.println "NONE"
'''
open('/tmp/G.lean','w').write(prog)
r=subprocess.run(f'cd {lean} && lake env lean /tmp/G.lean',shell=True,capture_output=True,text=True)
if 'NONE' in r.stdout or not r.stdout.startswith('@'): sys.exit(r.stdout[:2000]+r.stderr[:2000])
items=[]
for l in r.stdout.split('\n'):
    if l.startswith('@'): items.append((l[1:],[]))
    else: items[-1][1].append(l)
box=open('/repo/src/tagged_box.rs').read().split('\n')
shift='(.bin .shr (.bin .shl (.call (.path [("usize", []), ("max_value", [])]) []) (.lit "32")) (.lit "32"))'
custom='(.struct [("Custom", [])] [("a", (.lit "10000")), ("b", (.path [("false", [])])), ("c", (.array ['+', '.join([shift]*10)+']))])'
out='''import Verif.Rust.BoxTests

/-!
# The tests of `TaggedBox` that use boxes directly, as syntax trees

Written out (by `scripts/gen_box_tests.py`) so that proofs can refer to them; `new_source` and `new_zst_source` check, by computation in the kernel, that they are what the lexer and the parser
make of the text of the file.
-/

set_option autoImplicit false
set_option maxRecDepth 100000

namespace TB.Rust.Code

open TB.Mbe TB.Macro TB.Rust TB.Source

/-- `(usize::max_value() << 32) >> 32` -/
def halfMax : Expr := '''+shift[1:-1]+'''

/-- `Custom { a: 10000, b: false, c: [(usize::max_value() << 32) >> 32; 10] }` -/
def customE : Expr := '''+custom[1:-1].replace(shift,'halfMax')+'\n'
for n,b in items:
    i=[k for k,l in enumerate(box) if l.strip()==f'fn {n}() {{'][0]
    assert n!='new' or '\n'.join(b).count(custom)==2
    out+=f'\n/-- `src/tagged_box.rs:{i+1}` -/\ndef box_test_{n} : List Stmt := '+'\n'.join(b).rstrip().replace(custom,'customE')+'\n'
for n in ['new','new_zst']:
    out+=f'\ntheorem {n}_source : boxTest "{n}" boxText = some box_test_{n} := by\n  kernel_rfl\n'
out+='\nend TB.Rust.Code\n'
open(os.path.join(lean,'Verif/Source/BoxTests.lean'),'w').write(out)
