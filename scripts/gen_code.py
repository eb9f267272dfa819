"""Writes `Verif/Source/Code.lean`: the syntax trees of the crate's functions, as data."""
import subprocess
prog='''import Verif.Rust.Crate
open TB.Mbe TB.Macro TB.Rust
def lst (xs : List String) : String := "[" ++ ", ".intercalate xs ++ "]"
def opt : Option String → String | none => "none" | some s => s!"(some {s})"
partial def uTy : Ty → String
  | .named s => s!"(.named {repr s})"
  | .app s ts => s!"(.app {repr s} {lst (ts.map uTy)})"
  | _ => "?"
mutual
partial def sTy : RTy → String
  | .path p => s!"(.path {sPath p})"
  | .ref m t => s!"(.ref {m} {sTy t})"
  | .ptr m t => s!"(.ptr {m} {sTy t})"
  | .tuple ts => s!"(.tuple {lst (ts.map sTy)})"
  | .infer => ".infer"
  | .user t => s!"(.user {uTy t})"
partial def sPath (p : RPath) : String := lst (p.map fun x => s!"({repr x.1}, {lst (x.2.map sTy)})")
end
def sUn : UnOp → String | .not => ".not" | .neg => ".neg" | .deref => ".deref"
def sBin : BinOp → String
  | .mul => ".mul" | .div => ".div" | .rem => ".rem" | .add => ".add" | .sub => ".sub" | .shl => ".shl" | .shr => ".shr" | .and => ".and"
  | .xor => ".xor" | .or => ".or" | .eq => ".eq" | .ne => ".ne" | .lt => ".lt" | .gt => ".gt" | .le => ".le" | .ge => ".ge" | .land => ".land"
  | .lor => ".lor" | .assign => ".assign" | .addAssign => ".addAssign"
partial def sPat : TB.Rust.Pat → String
  | .wild => ".wild"
  | .bind x => s!"(.bind {repr x})"
  | .lit s => s!"(.lit {repr s})"
  | .path p => s!"(.path {sPath p})"
  | .tuple ps => s!"(.tuple {lst (ps.map sPat)})"
  | .call p ps => s!"(.call {sPath p} {lst (ps.map sPat)})"
  | .struct p fs => s!"(.struct {sPath p} {lst (fs.map fun x => s!"({repr x.1}, {sPat x.2})")})"
mutual
partial def sE : Expr → String
  | .lit s => s!"(.lit {repr s})"
  | .path p => s!"(.path {sPath p})"
  | .un o e => s!"(.un {sUn o} {sE e})"
  | .ref m e => s!"(.ref {m} {sE e})"
  | .bin o a b => s!"(.bin {sBin o} {sE a} {sE b})"
  | .cast e t => s!"(.cast {sE e} {sTy t})"
  | .call f as => s!"(.call {sE f} {lst (as.map sE)})"
  | .method e n ts as => s!"(.method {sE e} {repr n} {lst (ts.map sTy)} {lst (as.map sE)})"
  | .field e n => s!"(.field {sE e} {repr n})"
  | .struct p fs => s!"(.struct {sPath p} {lst (fs.map fun x => s!"({repr x.1}, {sE x.2})")})"
  | .tuple es => s!"(.tuple {lst (es.map sE)})"
  | .array es => s!"(.array {lst (es.map sE)})"
  | .mac m as => s!"(.mac {repr m} {lst (as.map sE)})"
  | .block ss => s!"(.block {lst (ss.map sS)})"
  | .ite c t e => s!"(.ite {sE c} {sE t} {opt (e.map sE)})"
  | .iflet p c t e => s!"(.iflet {sPat p} {sE c} {sE t} {opt (e.map sE)})"
  | .mtch e as => s!"(.mtch {sE e} {lst (as.map fun x => s!"({sPat x.1}, {opt (x.2.1.map sE)}, {sE x.2.2})")})"
  | .closure ps e => s!"(.closure {lst (ps.map sPat)} {sE e})"
partial def sS : Stmt → String
  | .letS p t e => s!"(.letS {sPat p} {opt (t.map sTy)} {sE e})"
  | .semi e => s!"(.semi {sE e})"
  | .tail e => s!"(.tail {sE e})"
  | .constS x t e => s!"(.constS {repr x} {sTy t} {sE e})"
  | .enumS _ x vs => s!"(.enumS [] {repr x} {lst (vs.map fun v => s!"{repr v}")})"
  | .structS b _ x fs => s!"(.structS {b} [] {repr x} {lst (fs.map fun f => s!"({repr f.1}, {sTy f.2})")})"
  | .useS => ".useS"
end
def sK : SelfKind → String | .value => ".value" | .ref => ".ref" | .refMut => ".refMut"
def sF (f : Fn) : String :=
  s!"⟨[], {repr f.name}, {lst (f.generics.map fun g => s!"{repr g}")}, {opt (f.self.map sK)}, {lst (f.params.map fun p => s!"({repr p.1}, {sTy p.2})")}, {opt (f.ret.map sTy)}, [\\n  {",\\n  ".intercalate (f.body.map sS)}]⟩"
def rd (f : String) : IO (List (List Char)) := do
  let t ← IO.FS.readFile f
  return [t.toList]
#eval do
  let d ← rd "/repo/src/discriminant.rs"
  let l ← rd "/repo/src/lib.rs"
  let p ← rd "/repo/src/tagged_pointer.rs"
  let b ← rd "/repo/src/tagged_box.rs"
  match itemsOf (macrosOf d ["doc", "generate_discriminants"]) d,
      itemsOf (macrosOf l ["impl_fmt"]) p, itemsOf (macrosOf l ["impl_fmt"]) b with
  | some d, some p, some b =>
    for r in cfgModules d do
      let ts : List String := r.2.1.map fun (x : String × RTy) => s!"({repr x.1}, {sTy x.2})"
      let cs : List String := r.2.2.map fun (x : String × RTy × Expr) => s!"({repr x.1}, {sTy x.2.1}, {sE x.2.2})"
      IO.println s!"@row {r.1}\\n({repr r.1}, {lst ts},\\n    [{",\\n     ".intercalate cs}])"
    for s in itemStructs (p ++ b) do
      let fs : List String := s.2.map fun (x : String × RTy) => s!"({repr x.1}, {sTy x.2})"
      IO.println s!"@struct {s.1}\\n({repr s.1}, {lst fs})"
    for f in inherentFns (p ++ b) do IO.println s!"@fn {f.1} {f.2.name}\\n{sF f.2}"
    for f in traitImpls (p ++ b) do IO.println s!"@trait {f.1} {f.2.1} {f.2.2.name}\\n{sF f.2.2}"
  | _, _, _ => IO.println "NONE"
'''
open('/tmp/G.lean','w').write(prog)
r=subprocess.run('cd /verif/lean && lake env lean /tmp/G.lean',shell=True,capture_output=True,text=True)
print(r.stderr[:2000])
items=[]
for l in r.stdout.split('\n'):
    if l.startswith('@'): items.append((l[1:].split(' '),[]))
    elif items: items[-1][1].append(l)
    else: print(l)
items=[(h,'\n'.join(b).rstrip()) for h,b in items]
import re
def where(ty,name,k=0):
    f={'TaggedPointer':'src/tagged_pointer.rs','TaggedBox':'src/tagged_box.rs'}[ty]
    ls=open('/repo/'+f).read().split('\n')
    hits=[i for i,l in enumerate(ls) if re.match(r'\s*(pub(\(crate\))? )?(const )?(unsafe )?fn '+name+r'\b',l)]
    i=hits[k]
    ind=re.match(r'\s*',ls[i]).group(0)
    j=i
    while not ls[j].startswith(ind+'}'): j+=1
    return f'{f}:{i+1}-{j+1}'
out='''import Verif.Rust.Crate

/-!
# The crate's functions as syntax trees

Written out (by `scripts/gen_code.py`) so that proofs can refer to them; `source_parts` checks, by computation in the kernel, that they are what the
lexer, the macro engine and the parser make of the text of the files.
-/

set_option autoImplicit false

namespace TB.Rust.Code

open TB.Mbe TB.Macro TB.Rust

/-- The modules `variables`. `src/discriminant.rs:31-88` -/
def rows : List (String × List (String × RTy) × List (String × RTy × Expr)) := [
  '''+',\n  '.join(b for h,b in items if h[0]=='row')+''']

/-- The structs. `src/tagged_pointer.rs:12-15`, `src/tagged_box.rs:15-19` -/
def structs : List (String × List (String × RTy)) := [
  '''+',\n  '.join(b for h,b in items if h[0]=='struct')+''']

'''
fns=[];trs=[]
short={'TaggedPointer':'ptr','TaggedBox':'box'}
seen={}
for h,b in items:
    if h[0]=='fn':
        n=f'{short[h[1]]}_{h[2]}'
        out+=f'/-- `{h[1]}::{h[2]}`. `{where(h[1],h[2])}` -/\ndef {n} : Fn :=\n  {b}\n\n'
        fns.append(f'("{h[1]}", {n})')
    elif h[0]=='trait':
        n=f'{short[h[2]]}_{h[1]}_{h[3]}'
        k=seen.get((h[2],h[3]),0); seen[(h[2],h[3])]=k+1
        try: w=where(h[2],h[3],k)
        except IndexError: w='`impl_fmt!`, src/lib.rs'
        out+=f'/-- `{h[1]}::{h[3]}` for `{h[2]}`. `{w}` -/\ndef {n} : Fn :=\n  {b}\n\n'
        trs.append(f'("{h[1]}", "{h[2]}", {n})')
out+='''/-- All of it. -/
def parts : Parts := ⟨rows, structs, [
  '''+',\n  '.join(fns)+'], [\n  '+',\n  '.join(trs)+''']⟩

set_option maxRecDepth 100000 in
theorem source_parts : sourceParts = some parts := by
  kernel_rfl

end TB.Rust.Code
'''
open('/verif/lean/Verif/Source/Code.lean','w').write(out)
