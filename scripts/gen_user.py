"""Writes `Verif/Source/UserCode.lean`: the syntax trees of the integration tests and of the examples that use `tagged_box!`, as data."""
import os, re, subprocess, sys
here=os.path.dirname(os.path.abspath(__file__))
lean=os.environ.get('LEAN_DIR', os.path.join(here,'..','lean'))
gc=os.environ.get('GEN_CODE', os.path.join(here,'gen_code.py'))
g=open(gc).read()
prog=g[g.index("prog='''")+8:g.index("def rd (f")].replace('\\\\n','\\n').replace('import Verif.Rust.Crate','import Verif.Rust.UserCode')
prog+='''
def lines (f : String) : IO (List (List Char)) := do
  let s ← IO.FS.readFile f
  pure ((s.splitOn "\\n").map String.toList)
def exs (what : String) (bs : List (List (List Char))) : IO Unit := do
  for b in bs do
    match userExample b with
    | some (_, ss) => IO.println s!"@{what}\\n[\\n  {",\\n  ".intercalate (ss.map sS)}]"
    | none => pure ()
#eval show IO Unit from do
  match userFile (← lines "/repo/tests/tagged_box_macro.rs") with
  | some (_, fs) => for f in fs do IO.println s!"@test {f.name}\\n{sF f}"
  | none => IO.println "NONE"
  match userTestFn "storage" (← lines "/repo/src/tagged_box.rs") with
  | some (_, ss) => IO.println s!"@storage\\n[\\n  {",\\n  ".intercalate (ss.map sS)}]"
  | none => IO.println "NONE"
  exs "lib" (innerBlocks (← lines "/repo/src/lib.rs") none)
  exs "mod" (docBlocks (← lines "/repo/src/tagged_box_macro/mod.rs") none)
'''
open('/tmp/G.lean','w').write(prog)
r=subprocess.run(f'cd {lean} && lake env lean /tmp/G.lean',shell=True,capture_output=True,text=True)
if 'NONE' in r.stdout or not r.stdout.startswith('@'): sys.exit(r.stdout[:2000]+r.stderr[:2000])
items=[]
for l in r.stdout.split('\n'):
    if l.startswith('@'): items.append((l[1:].split(' '),[]))
    else: items[-1][1].append(l)

src=open('/repo/tests/tagged_box_macro.rs').read().split('\n')
lib=open('/repo/src/lib.rs').read().split('\n')
mod=open('/repo/src/tagged_box_macro/mod.rs').read().split('\n')
special={'[u8; 8]':'.group .bracket [.ident "u8", .other ";", .other "8"]','Vec<u8>':'.ident "Vec", .other "<", .ident "u8", .other ">"'}
tt=lambda x: special.get(x,f'.ident "{x}"')
ty=lambda x: '.app "Vec" [.named "u8"]' if x=='Vec<u8>' else f'.named "{x}"'
def decl(n, doc, metas, sv, ev, vs, sn='Container', en='Item'):
    """vs: (name, None | [types] | [(field, type)]); the last member of a structure may be '' for no trailing comma"""
    t=[]; d=[]
    for v,f in vs:
        if f is None: t+=[f'.ident "{v}"','.comma']; d.append(f'⟨"{v}", .unit⟩')
        elif isinstance(f[0],str):
            g=', .comma, '.join(tt(x) for x in f)
            t+=[f'.ident "{v}"',f'.group .paren [{g}]','.comma']; d.append(f'⟨"{v}", .tuple ['+', '.join(ty(x) for x in f)+']⟩')
        else:
            last=f[-1]==''
            f=f[:-1] if last else f
            g=', '.join(f'.ident "{a}", .colon, .ident "{b}", .comma' for a,b in f)
            if last: g=g[:-len(', .comma')]
            t+=[f'.ident "{v}"',f'.group .brace [{g}]','.comma']; d.append(f'⟨"{v}", .record ['+', '.join(f'("{a}", .named "{b}")' for a,b in f)+']⟩')
    return f"""
/-- {doc}: what is between the braces, and what it declares. -/
def {n}Toks : List Tok := [{', '.join(t)}]
def {n}Decl : List VariantDef := [{', '.join(d)}]
/-- The attributes, and the whole input of the macro. -/
def {n}Metas : List (List TT) := [rust% "{metas}"]
def {n}Input : List TT := invocation {n}Metas {sv} "{sn}" {ev} "{en}" {n}Toks
"""
out="""import Verif.Rust.UserCode
import Verif.Source.TestsText
import Verif.Source.TaggableText
import Verif.Source.ReadmeText
import Verif.Source.LibText
import Verif.Source.BoxText
import Verif.Source.ModText
import Verif.Spec.Invocation

/-!
# The integration tests, and the examples that use `tagged_box!`, as syntax trees

Written out (by `scripts/gen_user.py`) so that proofs can refer to them; `file_source`, `quickstart_source` and `macro_source` check, by computation in the kernel, that they are
what the lexer and the parser make of the text of the files.
-/

set_option autoImplicit false
set_option maxRecDepth 100000

namespace TB.Rust.Code

open TB.Mbe TB.Macro TB.Rust TB.Source
"""
out+=decl('tests','`tests/tagged_box_macro.rs:3-14`','derive(Debug, Copy, Clone, PartialEq, PartialOrd)','[]','[]',
 [('SingleTuple',['usize']),('ManyTuple',['usize','usize','f32','usize']),('Unit',None),('Orphan',[('int','u32'),('boolean','bool')])])
out+=decl('quick','`src/lib.rs:36-47`','derive(Debug, Clone, PartialEq)','(rust% "pub")','(rust% "pub")',
 [('String',['String']),('Numbers',['i32','f32']),('Nothing',None),('Struct',[('float','f32'),('boolean','bool')])])
out+=decl('first','`src/tagged_box_macro/mod.rs:606-619`','derive(Debug, Clone, PartialEq)','[]','[]',
 [('Integer',['i32']),('Numbers',['usize','f32','u8']),('Unsigned',[('big','u128'),('large','u64'),('medium','u32'),('small','u16'),('tiny','u8')])])
out+=decl('second','`src/tagged_box_macro/mod.rs:711-718`','derive(Debug, Clone, PartialEq)','[]','[]',
 [('Integer',['i32']),('Boolean',['bool']),('String',['String'])])
out+=decl('storage','`src/tagged_box.rs:784-804`','derive(Debug, Clone, PartialEq)','[]','[]',
 [('Float',['f32']),('Int',['i32']),('Byte',['u8']),('Unit',None),('Bool',['bool']),('Array',['[u8; 8]']),('Vector',['Vec<u8>']),('CustomStruct',['CustomStruct']),
  ('OrphanStructTrailingComma',[('int','i32'),('trailing_comma','f32')]),('OrphanStructNoTrailingComma',[('int','i32'),('no_trailing_comma','f32'),''])],'Outer','Inner')
tests=[]; exs=[]
for h,b in items:
    b='\n'.join(b).rstrip()
    if h[0]=='test':
        i=[k for k,l in enumerate(src) if re.match(r'fn '+h[1]+r'\(',l)][0]
        assert src[i-1]=='#[test]'
        b=b.replace('⟨[]','⟨[[.atom (.ident "test")]]',1)
        n='user_'+h[1]
        out+=f'\n/-- `tests/tagged_box_macro.rs:{i}` -/\ndef {n} : Fn := {b}\n'; tests.append(n)
    elif h[0]=='lib':
        out+=f'\n/-- The quickstart, `src/lib.rs:49-64` -/\ndef quickCode : List Stmt := {b}\n'
    elif h[0]=='storage':
        out+=f'\n/-- The test `storage`, `src/tagged_box.rs:806-825` -/\ndef storageCode : List Stmt := {b}\n'
    elif '.letS' in b:
        out+=f'\n/-- `src/tagged_box_macro/mod.rs:719-723` -/\ndef secondCode : List Stmt := {b}\n'
out+='\n/-- The tests. -/\ndef userTests : List Fn := ['+', '.join(tests)+']\n'
out+='\ntheorem file_source : userFile testsText = some (testsInput, userTests) := by\n  kernel_rfl\n'
out+='\ntheorem quickstart_source : (innerBlocks libText none).filterMap userExample = [(quickInput, quickCode)] := by\n  kernel_rfl\n'
out+='\ntheorem macro_source : (docBlocks modText none).filterMap userExample = [(firstInput, []), (secondInput, secondCode)] := by\n  kernel_rfl\n'
out+='\n/-- The tests of `src/taggable.rs` are the same. -/\ntheorem taggable_source : userTestsIn taggableText = some (testsInput, userTests) := by\n  kernel_rfl\n'
out+='\n/-- The example in `README.md` is that of `src/lib.rs`. -/\ntheorem readme_source : (fencedBlocks readmeText none).filterMap userExample = [(quickInput, quickCode)] := by\n  kernel_rfl\n'
out+='\ntheorem storage_source : userTestFn "storage" boxText = some (storageInput, storageCode) := by\n  kernel_rfl\n'
out+='\nend TB.Rust.Code\n'
open(os.path.join(lean,'Verif/Source/UserCode.lean'),'w').write(out)
