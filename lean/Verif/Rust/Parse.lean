import Verif.Rust.Syntax

/-!
# A parser

Recursive descent from token trees to syntax trees (Rust reference, "Expressions", "Statements", "Types", "Items"), for the part of the grammar in
`Rust/Syntax.lean`. Operator precedence is that of the reference. A fragment from a macro is one expression (or type) whatever its tokens are.

`none`: not in this part of the language. `n` bounds the depth of the recursion.

Skipped: attributes (kept as tokens), visibility, `const`/`unsafe` before functions, bounds of generic parameters, `where` clauses, lifetimes.
-/

set_option autoImplicit false

namespace TB.Rust

open TB.Mbe TB.Macro

/-- Does the input begin with this punctuation? -/
def eatP (s : String) : List TT → Option (List TT)
  | .atom (.punct x) :: r => if x = s then some r else none
  | _ => none

/-- Does the input begin with this word? -/
def eatK (s : String) : List TT → Option (List TT)
  | .atom (.ident x) :: r => if x = s then some r else none
  | _ => none

/-- `mut` or nothing -/
def eatMut (ts : List TT) : Bool × List TT :=
  match eatK "mut" ts with
  | some r => (true, r)
  | none => (false, ts)

/-- A lifetime or nothing -/
def eatLife : List TT → List TT
  | .atom (.punct q) :: .atom a :: r => if q = "'" then r else .atom (.punct q) :: .atom a :: r
  | r => r

/-- Up to and including the next `;` at this level. -/
def skipSemi : List TT → List TT
  | [] => []
  | .atom (.punct s) :: r => if s = ";" then r else skipSemi r
  | _ :: r => skipSemi r

/-! ## Types -/

mutual
def pTy : Nat → List TT → Option (RTy × List TT)
  | 0, _ => none
  | n + 1, ts => match ts with
    | .ty t :: r => some (.user t, r)
    | .atom (.punct s) :: r =>
      if s = "&" then
        match eatMut (eatLife r) with
        | (m, r) => match pTy n r with
          | some (t, r) => some (.ref m t, r)
          | none => none
      else if s = "*" then
        match r with
        | .atom (.ident q) :: r =>
          if q = "const" ∨ q = "mut" then
            match pTy n r with
            | some (t, r) => some (.ptr (q = "mut") t, r)
            | none => none
          else none
        | _ => none
      else if s = "_" then some (.infer, r)
      else none
    | .group .paren us :: r => match pTys n us with
      | some (ts, []) => some (.tuple ts, r)
      | _ => none
    | ts => match pTyPath n ts with
      | some (p, r) => some (.path p, r)
      | none => none

/-- A comma-separated list of types (and lifetimes, which are left out) up to something that is neither. -/
def pTys : Nat → List TT → Option (List RTy × List TT)
  | 0, _ => none
  | n + 1, ts => match eatLife ts with
    | [] => some ([], [])
    | ts => match eatP ">" ts with
      | some _ => some ([], ts)
      | none => match eatP "," ts with
        | some r => pTys n r
        | none => match pTy n ts with
          | none => none
          | some (t, r) => match eatP "," r with
            | some r => match pTys n r with
              | some (ts, r) => some (t :: ts, r)
              | none => none
            | none => some ([t], r)

/-- A path in a type. -/
def pTyPath : Nat → List TT → Option (RPath × List TT)
  | 0, _ => none
  | n + 1, ts =>
    match (match ts with
      | .atom (.ident x) :: r => some (x, r)
      | .crate :: r => some ("crate", r)
      | _ => none) with
    | none => none
    | some (x, r) =>
      match (match eatP "<" r with
        | some r => match pTys n r with
          | some (as, r) => match eatP ">" r with
            | some r => some (as, r)
            | none => none
          | none => none
        | none => some ([], r)) with
      | none => none
      | some (as, r) => match eatP "::" r with
        | some r' => match pTyPath n r' with
          | some (p, r) => some ((x, as) :: p, r)
          | none => none
        | none => some ([(x, as)], r)
end

/-- A path in an expression: generic arguments come after `::`. -/
def pPath : Nat → List TT → Option (RPath × List TT)
  | 0, _ => none
  | n + 1, .frag .path us :: r => match pPath n us with
    | some (p, []) => some (p, r)
    | _ => none
  | n + 1, ts =>
    match (match ts with
      | .atom (.ident x) :: r => some (x, r)
      | .crate :: r => some ("crate", r)
      | _ => none) with
    | none => none
    | some (x, r) => match eatP "::" r with
      | none => some ([(x, [])], r)
      | some r' => match eatP "<" r' with
        | none => match pPath n r' with
          | some (p, r) => some ((x, []) :: p, r)
          | none => none
        | some r'' => match pTys n r'' with
          | none => none
          | some (as, r) => match eatP ">" r with
            | none => none
            | some r => match eatP "::" r with
              | none => some ([(x, as)], r)
              | some r => match pPath n r with
                | some (p, r) => some ((x, as) :: p, r)
                | none => none

/-! ## Patterns -/

mutual
def pPat : Nat → List TT → Option (Pat × List TT)
  | 0, _ => none
  | n + 1, ts => match ts with
    | .atom (.punct s) :: r => if s = "_" then some (.wild, r) else none
    | .atom (.lit s) :: r => some (.lit s, r)
    | .group .paren us :: r => match pPats n us with
      | some ps => some (.tuple ps, r)
      | none => none
    | ts =>
      match (match eatK "mut" ts with
        | some r => some r
        | none => eatK "ref" ts) with
      | some (.atom (.ident x) :: r) => some (.bind x, r)
      | some _ => none
      | none => match pPath n ts with
        | none => none
        | some (p, .group .paren us :: r) => match pPats n us with
          | some ps => some (.call p ps, r)
          | none => none
        | some (p, .group .brace us :: r) => match pFieldPats n us with
          | some fs => some (.struct p fs, r)
          | none => none
        | some ([(x, [])], r) => some (.bind x, r)
        | some (p, r) => some (.path p, r)

def pPats : Nat → List TT → Option (List Pat)
  | 0, _ => none
  | n + 1, ts => match ts with
    | [] => some []
    | ts => match pPat n ts with
      | none => none
      | some (p, []) => some [p]
      | some (p, r) => match eatP "," r with
        | some r => match pPats n r with
          | some ps => some (p :: ps)
          | none => none
        | none => none

def pFieldPats : Nat → List TT → Option (List (String × Pat))
  | 0, _ => none
  | n + 1, ts => match ts with
    | [] => some []
    | .atom (.ident x) :: r =>
      match (match eatP ":" r with
        | some r => pPat n r
        | none => some (.bind x, r)) with
      | none => none
      | some (p, []) => some [(x, p)]
      | some (p, r) => match eatP "," r with
        | some r => match pFieldPats n r with
          | some ps => some ((x, p) :: ps)
          | none => none
        | none => none
    | _ => none
end

/-! ## Expressions -/

/-- The binary operator at the beginning, with its precedence. -/
def binOp : List TT → Option (BinOp × Nat × List TT)
  | .atom (.punct a) :: r =>
    if a = "*" then some (.mul, 12, r) else if a = "/" then some (.div, 12, r) else if a = "%" then some (.rem, 12, r)
    else if a = "+" then some (.add, 11, r) else if a = "-" then some (.sub, 11, r)
    else if a = "<" then match eatP "<" r with
      | some r => some (.shl, 10, r)
      | none => some (.lt, 6, r)
    else if a = ">" then match eatP ">" r with
      | some r => some (.shr, 10, r)
      | none => some (.gt, 6, r)
    else if a = "&" then some (.and, 9, r) else if a = "^" then some (.xor, 8, r) else if a = "|" then some (.or, 7, r)
    else if a = "==" then some (.eq, 6, r) else if a = "!=" then some (.ne, 6, r) else if a = "<=" then some (.le, 6, r)
    else if a = ">=" then some (.ge, 6, r) else if a = "&&" then some (.land, 5, r) else if a = "||" then some (.lor, 4, r)
    else if a = "=" then some (.assign, 1, r) else if a = "+=" then some (.addAssign, 1, r)
    else none
  | _ => none

/-- The names of the variants in `{ A, B, .. }`. -/
def variantNames : List TT → Option (List String)
  | [] => some []
  | [.atom (.ident x)] => some [x]
  | .atom (.ident x) :: .atom (.punct s) :: r =>
    if s = "," then (variantNames r).map (x :: ·) else none
  | _ => none

/-- Attributes, and what follows them. -/
def pAttrs : List TT → List (List TT) × List TT
  | .atom (.punct s) :: .group .bracket a :: r =>
    if s = "#" then (a :: (pAttrs r).1, (pAttrs r).2) else ([], .atom (.punct s) :: .group .bracket a :: r)
  | .atom (.punct s) :: .atom (.punct t) :: .group .bracket a :: r =>
    if s = "#" ∧ t = "!" then (pAttrs r) else ([], .atom (.punct s) :: .atom (.punct t) :: .group .bracket a :: r)
  | r => ([], r)

/-- Visibility or nothing -/
def eatVis : List TT → List TT
  | .frag .vis _ :: r => r
  | .atom (.ident x) :: r =>
    if x = "pub" then match r with
      | .group .paren _ :: r => r
      | r => r
    else .atom (.ident x) :: r
  | r => r

/-- `x: t, ..` -/
def pTyped : Nat → List TT → Option (List (String × RTy))
  | 0, _ => none
  | n + 1, ts => match (eatMut (eatVis (pAttrs ts).2)).2 with
    | [] => some []
    | .atom (.ident x) :: r => match eatP ":" r with
      | none => none
      | some r => match pTy n r with
        | none => none
        | some (t, r) => (pTyped n (match eatP "," r with
          | some r => r
          | none => r)).map ((x, t) :: ·)
    | _ => none

/-- The fields of `struct x(A, ..)`. -/
def positional (tys : List RTy) : List (String × RTy) := tys.zipIdx.map fun p => (toString p.2, p.1)

/-- Does an expression statement need no `;`? -/
def blockLike : Expr → Bool
  | .block _ => true
  | .ite _ _ _ => true
  | .iflet _ _ _ _ => true
  | .mtch _ _ => true
  | _ => false

mutual
/-- `ns`: no struct literals (before the `{` of `if` and `match`). `prec`: only operators that bind at least as strongly. -/
def pExpr : Nat → Bool → Nat → List TT → Option (Expr × List TT)
  | 0, _, _, _ => none
  | n + 1, ns, prec, ts => match pUnary n ns ts with
    | none => none
    | some (e, r) => match pCasts n e r with
      | none => none
      | some (e, r) => pBin n ns prec e r

/-- `as t` any number of times. -/
def pCasts : Nat → Expr → List TT → Option (Expr × List TT)
  | 0, _, _ => none
  | n + 1, e, ts => match eatK "as" ts with
    | none => some (e, ts)
    | some r => match pTy n r with
      | none => none
      | some (t, r) => pCasts n (.cast e t) r

/-- Operators and operands after an expression. -/
def pBin : Nat → Bool → Nat → Expr → List TT → Option (Expr × List TT)
  | 0, _, _, _, _ => none
  | n + 1, ns, prec, e, ts => match binOp ts with
    | none => some (e, ts)
    | some (op, p, r) =>
      if p < prec then some (e, ts)
      else match pExpr n ns (if p = 1 then 1 else p + 1) r with
        | none => none
        | some (e', r) => pBin n ns prec (.bin op e e') r

def pUnary : Nat → Bool → List TT → Option (Expr × List TT)
  | 0, _, _ => none
  | n + 1, ns, ts => match ts with
    | .atom (.punct s) :: r =>
      if s = "&" then
        match eatMut r with
        | (m, r) => match pUnary n ns r with
          | some (e, r) => some (.ref m e, r)
          | none => none
      else if s = "*" then (pUnary n ns r).map fun x => (.un .deref x.1, x.2)
      else if s = "!" then (pUnary n ns r).map fun x => (.un .not x.1, x.2)
      else if s = "-" then (pUnary n ns r).map fun x => (.un .neg x.1, x.2)
      else if s = "||" then (pExpr n ns 1 r).map fun x => (.closure [] x.1, x.2)
      else if s = "|" then
        match pParams n r with
        | none => none
        | some (ps, r) => (pExpr n ns 1 r).map fun x => (.closure ps x.1, x.2)
      else if s = "#" then
        match r with
        | .group .bracket _ :: r => pUnary n ns r
        | _ => none
      else none
    | ts => match pPrimary n ns ts with
      | none => none
      | some (e, r) => pPostfix n e r

/-- The parameters of a closure, up to `|`. -/
def pParams : Nat → List TT → Option (List Pat × List TT)
  | 0, _ => none
  | n + 1, ts => match eatP "|" ts with
    | some r => some ([], r)
    | none => match pPat n ts with
      | none => none
      | some (p, r) => match eatP "," r with
        | some r => (pParams n r).map fun x => (p :: x.1, x.2)
        | none => (pParams n r).map fun x => (p :: x.1, x.2)

/-- Calls, fields and methods after an expression. -/
def pPostfix : Nat → Expr → List TT → Option (Expr × List TT)
  | 0, _, _ => none
  | n + 1, e, ts => match ts with
    | .group .paren us :: r => match pExprs n us with
      | some es => pPostfix n (.call e es) r
      | none => none
    | .atom (.punct s) :: .atom (.ident x) :: r =>
      if s = "." then
        match r with
        | .group .paren us :: r => match pExprs n us with
          | some es => pPostfix n (.method e x [] es) r
          | none => none
        | r => match eatP "::" r with
          | none => pPostfix n (.field e x) r
          | some r => match eatP "<" r with
            | none => none
            | some r => match pTys n r with
              | none => none
              | some (as, r) => match eatP ">" r with
                | some (.group .paren us :: r) => match pExprs n us with
                  | some es => pPostfix n (.method e x as es) r
                  | none => none
                | _ => none
      else some (e, ts)
    | .atom (.punct s) :: .atom (.lit x) :: r =>
      if s = "." then pPostfix n (.field e x) r else some (e, ts)
    | ts => some (e, ts)

/-- Comma-separated expressions. -/
def pExprs : Nat → List TT → Option (List Expr)
  | 0, _ => none
  | n + 1, ts => match ts with
    | [] => some []
    | ts => match pExpr n false 1 ts with
      | none => none
      | some (e, []) => some [e]
      | some (e, r) => match eatP "," r with
        | some r => (pExprs n r).map (e :: ·)
        | none => none

/-- The fields of a struct literal. -/
def pFields : Nat → List TT → Option (List (String × Expr))
  | 0, _ => none
  | n + 1, ts => match ts with
    | [] => some []
    | .atom (.ident x) :: r =>
      match (match eatP ":" r with
        | some r => pExpr n false 1 r
        | none => some (.path [(x, [])], r)) with
      | none => none
      | some (e, []) => some [(x, e)]
      | some (e, r) => match eatP "," r with
        | some r => (pFields n r).map ((x, e) :: ·)
        | none => none
    | _ => none

/-- The arms of a `match`. -/
def pArms : Nat → List TT → Option (List (Pat × Option Expr × Expr))
  | 0, _ => none
  | n + 1, ts => match ts with
    | [] => some []
    | ts => match pPat n ts with
      | none => none
      | some (p, r) =>
        match (match eatK "if" r with
          | none => some (none, r)
          | some r => (pExpr n false 1 r).map fun x => (some x.1, x.2)) with
        | none => none
        | some (g, r) => match eatP "=>" r with
          | none => none
          | some r => match pExpr n false 1 r with
            | none => none
            | some (e, r) =>
              (pArms n (match eatP "," r with
                | some r => r
                | none => r)).map ((p, g, e) :: ·)

def pPrimary : Nat → Bool → List TT → Option (Expr × List TT)
  | 0, _, _ => none
  | n + 1, ns, ts => match ts with
    | .frag .expr us :: r => match pExpr n false 1 us with
      | some (e, []) => some (e, r)
      | _ => none
    | .frag .literal us :: r => match pExpr n false 1 us with
      | some (e, []) => some (e, r)
      | _ => none
    | .atom (.lit s) :: r => some (.lit s, r)
    | .group .paren us :: r => match pExprs n us with
      | some [e] => some ((match us.getLast? with
        | some (.atom (.punct s)) => if s = "," then .tuple [e] else e
        | _ => e), r)
      | some es => some (.tuple es, r)
      | none => none
    | .group .bracket us :: r => (pExprs n us).map fun es => (.array es, r)
    | .group .brace us :: r => (pBlock n us).map fun ss => (.block ss, r)
    | .atom (.ident x) :: r =>
      if x = "unsafe" then
        match r with
        | .group .brace us :: r => (pBlock n us).map fun ss => (.block ss, r)
        | _ => none
      else if x = "if" then
        match (match eatK "let" r with
          | some r => match pPat n r with
            | none => none
            | some (p, r) => match eatP "=" r with
              | none => none
              | some r => (pExpr n true 2 r).map fun x => (some p, x.1, x.2)
          | none => (pExpr n true 1 r).map fun x => (none, x.1, x.2) : Option (Option Pat × Expr × List TT)) with
        | some (p, c, .group .brace us :: r) => match pBlock n us with
          | none => none
          | some ss =>
            match (match eatK "else" r with
              | none => some (none, r)
              | some r => (pPrimary n ns r).map fun x => (some x.1, x.2)) with
            | none => none
            | some (e, r) => match p with
              | none => some (.ite c (.block ss) e, r)
              | some p => some (.iflet p c (.block ss) e, r)
        | _ => none
      else if x = "match" then
        match pExpr n true 1 r with
        | some (e, .group .brace us :: r) => (pArms n us).map fun as => (.mtch e as, r)
        | _ => none
      else pPathExpr n ns ts
    | ts => pPathExpr n ns ts

/-- A path, a macro call or a struct literal. -/
def pPathExpr : Nat → Bool → List TT → Option (Expr × List TT)
  | 0, _, _ => none
  | n + 1, ns, ts => match pPath n ts with
    | none => none
    | some (p, r) => match eatP "!" r, p with
      | some (.group _ us :: r), [(m, [])] => (pExprs n us).map fun es => (.mac m es, r)
      | _, p => match ns, r with
        | false, .group .brace us :: r => (pFields n us).map fun fs => (.struct p fs, r)
        | _, r => some (.path p, r)

/-- The statements of a block. -/
def pBlock : Nat → List TT → Option (List Stmt)
  | 0, _ => none
  | n + 1, ts => match pAttrs ts with
    | (attrs, ts) => match ts with
      | [] => some []
      | ts => match eatK "use" ts with
        | some r => (pBlock n (skipSemi r)).map (.useS :: ·)
        | none => match eatK "const" ts with
          | some (.atom (.ident x) :: r) => match eatP ":" r with
            | none => none
            | some r => match pTy n r with
              | none => none
              | some (t, r) => match eatP "=" r with
                | none => none
                | some r => match pExpr n false 1 r with
                  | none => none
                  | some (e, r) => match eatP ";" r with
                    | none => none
                    | some r => (pBlock n r).map (.constS x t e :: ·)
          | some _ => none
          | none => match eatK "enum" ts with
            | some (.atom (.ident x) :: .group .brace us :: r) => match variantNames us with
              | none => none
              | some vs => (pBlock n r).map (.enumS attrs x vs :: ·)
            | some _ => none
            | none => match eatK "struct" ts with
            | some (.atom (.ident x) :: .group .brace us :: r) => match pTyped n us with
              | none => none
              | some fs => (pBlock n r).map (.structS true attrs x fs :: ·)
            | some (.atom (.ident x) :: .group .paren us :: r) => match pTys n us with
              | some (tys, []) => match eatP ";" r with
                | none => none
                | some r => (pBlock n r).map (.structS false attrs x (positional tys) :: ·)
              | _ => none
            | some _ => none
            | none => match eatK "let" ts with
              | some r => match pPat n r with
                | none => none
                | some (p, r) =>
                  match (match eatP ":" r with
                    | none => some (none, r)
                    | some r => (pTy n r).map fun x => (some x.1, x.2)) with
                  | none => none
                  | some (t, r) => match eatP "=" r with
                    | none => none
                    | some r => match pExpr n false 1 r with
                      | none => none
                      | some (e, r) => match eatP ";" r with
                        | none => none
                        | some r => (pBlock n r).map (.letS p t e :: ·)
              | none => match pExpr n false 1 ts with
                | none => none
                | some (e, r) => match eatP ";" r with
                  | some r => (pBlock n r).map (.semi e :: ·)
                  | none => match r with
                    | [] => some [.tail e]
                    | r => if blockLike e then (pBlock n r).map (.tail e :: ·) else none
end

/-! ## Items -/

/-- The names of generic parameters; `d` is the number of open `<`, `b`: a parameter begins here. -/
def pGenerics : Nat → Bool → List TT → Option (List String × List TT)
  | _, _, [] => none
  | d, b, .atom (.punct s) :: r =>
    if s = ">" then match d with
      | 0 => some ([], r)
      | d + 1 => pGenerics d false r
    else if s = "<" then pGenerics (d + 1) false r
    else pGenerics d (decide (s = ",") && decide (d = 0)) r
  | d, b, .atom (.ident x) :: r => match pGenerics d false r with
    | none => none
    | some (xs, r) => some (if b then x :: xs else xs, r)
  | d, _, _ :: r => pGenerics d false r

/-- `<..>` or nothing -/
def optGenerics (ts : List TT) : Option (List String × List TT) :=
  match eatP "<" ts with
  | some r => pGenerics 0 true r
  | none => some ([], ts)

/-- `self`, `mut self`, `&self`, `&mut self` and a comma, or nothing -/
def eatSelf (ts : List TT) : Option SelfKind × List TT :=
  let comma (r : List TT) : List TT := match eatP "," r with
    | some r => r
    | none => r
  match eatP "&" ts with
  | some r => match eatMut r with
    | (m, r) => match eatK "self" r with
      | some r => (some (if m then .refMut else .ref), comma r)
      | none => (none, ts)
  | none => match eatMut ts with
    | (_, r) => match eatK "self" r with
      | some r => (some .value, comma r)
      | none => (none, ts)

/-- Up to the next group in braces. -/
def toBrace : List TT → Option (List TT × List TT)
  | [] => none
  | .group .brace us :: r => some (us, r)
  | _ :: r => toBrace r

/-- A function, after `fn`. -/
def pFn (n : Nat) (attrs : List (List TT)) : List TT → Option (Fn × List TT)
  | .atom (.ident x) :: r => match optGenerics r with
    | some (gs, .group .paren us :: r) =>
      match eatSelf us with
      | (self, us) => match pTyped n us with
        | none => none
        | some ps =>
          match (match eatP "->" r with
            | some r => (pTy n r).map fun x => (some x.1, x.2)
            | none => some (none, r)) with
          | none => none
          | some (ret, r) => match toBrace r with
            | none => none
            | some (us, r) => (pBlock n us).map fun ss => (⟨attrs, x, gs, self, ps, ret, ss⟩, r)
    | _ => none
  | _ => none

/-- Leave out `const`, `unsafe` before `fn`. -/
def eatQual (ts : List TT) : List TT :=
  let ts := match eatK "const" ts with
    | some (.atom (.ident x) :: r) => if x = "fn" ∨ x = "unsafe" then .atom (.ident x) :: r else ts
    | _ => ts
  match eatK "unsafe" ts with
  | some (.atom (.ident x) :: r) => if x = "fn" then .atom (.ident x) :: r else ts
  | _ => ts

/-- Items. -/
def pItems : Nat → List TT → Option (List Item)
  | 0, _ => none
  | n + 1, ts => match pAttrs ts with
    | (attrs, ts) => match eatQual (eatVis ts) with
      | [] => some []
      | .atom (.ident k) :: r =>
        if k = "fn" then
          match pFn n attrs r with
          | none => none
          | some (f, r) => (pItems n r).map (.fn f :: ·)
        else if k = "use" ∨ k = "extern" then (pItems n (skipSemi r)).map (.other k :: ·)
        else if k = "trait" then
          match toBrace r with
          | none => none
          | some (_, r) => (pItems n r).map (.other k :: ·)
        else if k = "mod" then
          match r with
          | .atom (.ident x) :: .group .brace us :: r =>
            if attrs.any (fun a => match a with
              | [.atom (.ident c), .group .paren [.atom (.ident t)]] => c == "cfg" && t == "test"
              | _ => false) then (pItems n r).map (.other "tests" :: ·)
            else match pItems n us with
              | none => none
              | some is => (pItems n r).map (.mod attrs x is :: ·)
          | r => (pItems n (skipSemi r)).map (.other k :: ·)
        else if k = "struct" then
          match r with
          | .atom (.ident x) :: r => match optGenerics r with
            | some (gs, .group .brace us :: r) => match pTyped n us with
              | none => none
              | some fs => (pItems n r).map (.struct attrs x gs fs :: ·)
            | _ => none
          | _ => none
        else if k = "enum" then
          match r with
          | .atom (.ident x) :: .group .brace us :: r => (pItems n r).map (.enum attrs x us :: ·)
          | _ => none
        else if k = "const" then
          match r with
          | .atom (.ident x) :: r => match eatP ":" r with
            | none => none
            | some r => match pTy n r with
              | none => none
              | some (t, r) => match eatP "=" r with
                | none => none
                | some r => match pExpr n false 1 r with
                  | none => none
                  | some (e, r) => match eatP ";" r with
                    | none => none
                    | some r => (pItems n r).map (.const attrs x t e :: ·)
          | _ => none
        else if k = "type" then
          match r with
          | .atom (.ident x) :: r => match eatP "=" r with
            | none => none
            | some r => match pTy n r with
              | none => none
              | some (t, r) => match eatP ";" r with
                | none => none
                | some r => (pItems n r).map (.type attrs x t :: ·)
          | _ => none
        else if k = "impl" then
          match optGenerics r with
          | none => none
          | some (gs, r) => match pTy n r with
            | none => none
            | some (t, r) =>
              match (match eatK "for" r with
                | none => some (none, t, r)
                | some r => (pTy n r).map fun x => (some t, x.1, x.2)) with
              | none => none
              | some (tr, t, r) => match toBrace r with
                | none => none
                | some (us, r) => match pItems n us with
                  | none => none
                  | some is => (pItems n r).map (.impl attrs gs tr t is :: ·)
        else if k = "macro_rules" then
          match toBrace r with
          | none => none
          | some (_, r) => (pItems n r).map (.other k :: ·)
        else
          match eatP "!" r with
          | some (.group d us :: r) =>
            (pItems n (match eatP ";" r with
              | some r => r
              | none => r)).map (.mac k us :: ·)
          | _ => none
      | _ => none

/-- The items of a text. -/
def parseItems (ls : List (List Char)) : Option (List Item) :=
  match parseText ls with
  | some ts => pItems 1000 ts
  | none => none

end TB.Rust
