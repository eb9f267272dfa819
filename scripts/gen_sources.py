import sys
def esc(s):
    return '"'+s.replace('\\','\\\\').replace('"','\\"').replace('\n','\\n')+'"'
def pieces(ls):
    """Lines; the lines of a string literal that goes over several lines stay together."""
    out=[]; cur=[]; instr=False
    for l in ls:
        i=0
        while i<len(l):
            if instr:
                if l[i]=='\\': i+=1
                elif l[i]=='"': instr=False
            else:
                if l[i]=='"': instr=True
                elif l[i:i+2]=='//': break
            i+=1
        cur.append(l)
        if not instr: out.append('\n'.join(cur)); cur=[]
    assert not cur
    return out
def gen(path, rel, name, mod, a=None, b=None, what=''):
    ls=open(path).read().split('\n')
    if ls[-1]=='': ls=ls[:-1]
    lo=1 if a is None else a; hi=len(ls) if b is None else b
    multi='' if len(pieces(ls[lo-1:hi]))==hi-lo+1 else ' (the lines of one string literal are one entry)'
    out=f'''import Verif.Mbe.Lex

/-!
# The text of `{rel}`

{what}, verbatim, one entry per line{multi} (written by `scripts/gen_sources.py` from the file).
-/

set_option autoImplicit false
set_option maxRecDepth 100000

namespace TB.Source

/-- `{rel}:{lo}-{hi}` -/
noncomputable def {name} : List (List Char) := [
'''
    out+=",\n".join("  src% "+esc(l) for l in pieces(ls[lo-1:hi]))
    out+="]\n\nend TB.Source\n"
    open(f'/verif/lean/Verif/Source/{mod}.lean','w').write(out)
gen('/repo/src/tagged_box_macro/mod.rs','src/tagged_box_macro/mod.rs','modText','ModText',what='The whole file')
gen('/repo/src/tagged_box_macro/meta_macros.rs','src/tagged_box_macro/meta_macros.rs','metaText','MetaText',what='The whole file')
gen('/repo/src/tagged_pointer.rs','src/tagged_pointer.rs','pointerText','PointerText',what='The whole file')
gen('/repo/src/tagged_box.rs','src/tagged_box.rs','boxText','BoxText',what='The whole file')
gen('/repo/src/discriminant.rs','src/discriminant.rs','discriminantText','DiscriminantText',what='The whole file')
gen('/repo/src/lib.rs','src/lib.rs','libText','LibText',what='The whole file')
gen('/repo/build.rs','build.rs','buildText','BuildText',what='The whole file')
gen('/repo/Makefile.toml','Makefile.toml','makeText','MakeText',what='The whole file')
gen('/repo/src/manually_impl_enum.rs','src/manually_impl_enum.rs','guideText','GuideText',what='The whole file')
gen('/repo/tests/tagged_box_macro.rs','tests/tagged_box_macro.rs','testsText','TestsText',what='The whole file')
gen('/repo/src/taggable.rs','src/taggable.rs','taggableText','TaggableText',what='The whole file')
gen('/repo/README.md','README.md','readmeText','ReadmeText',what='The whole file')
gen('/repo/benches/tagged_box.rs','benches/tagged_box.rs','benchText','BenchText',what='The whole file')
