import Verif.Rust.GenCode
import Verif.Lemmas.PsAttr

/-! # Parsing generated code: single steps (helper lemmas; no property theorems here) -/

set_option autoImplicit false

namespace TB.Rust

open TB.Mbe TB.Macro

/-- The words the parser treats specially. -/
def kws : List String :=
  ["mut", "ref", "as", "if", "unsafe", "match", "use", "const", "enum", "struct", "let", "self", "pub", "else", "fn", "extern", "trait", "mod",
    "type", "impl"]

/-- A name that is none of the words the parser treats specially. -/
class IsName (x : String) : Prop where
  h : x ∉ kws

section
variable (x : String) [i : IsName x]
@[ps] theorem ne_mut : (x = "mut") = False := eq_false fun h => i.h (by simp [h, kws])
@[ps] theorem ne_ref : (x = "ref") = False := eq_false fun h => i.h (by simp [h, kws])
@[ps] theorem ne_as : (x = "as") = False := eq_false fun h => i.h (by simp [h, kws])
@[ps] theorem ne_if : (x = "if") = False := eq_false fun h => i.h (by simp [h, kws])
@[ps] theorem ne_unsafe : (x = "unsafe") = False := eq_false fun h => i.h (by simp [h, kws])
@[ps] theorem ne_match : (x = "match") = False := eq_false fun h => i.h (by simp [h, kws])
@[ps] theorem ne_use : (x = "use") = False := eq_false fun h => i.h (by simp [h, kws])
@[ps] theorem ne_const : (x = "const") = False := eq_false fun h => i.h (by simp [h, kws])
@[ps] theorem ne_enum : (x = "enum") = False := eq_false fun h => i.h (by simp [h, kws])
@[ps] theorem ne_struct : (x = "struct") = False := eq_false fun h => i.h (by simp [h, kws])
@[ps] theorem ne_let : (x = "let") = False := eq_false fun h => i.h (by simp [h, kws])
@[ps] theorem ne_self : (x = "self") = False := eq_false fun h => i.h (by simp [h, kws])
@[ps] theorem ne_pub : (x = "pub") = False := eq_false fun h => i.h (by simp [h, kws])
@[ps] theorem ne_else : (x = "else") = False := eq_false fun h => i.h (by simp [h, kws])
@[ps] theorem ne_fn : (x = "fn") = False := eq_false fun h => i.h (by simp [h, kws])
end

section
variable (s x : String) (r us : List TT) (d : Delim) (t : Ty) (k : Kind)

@[ps] theorem eatP_nil : eatP s [] = none := rfl
@[ps] theorem eatP_punct : eatP s (.atom (.punct x) :: r) = if x = s then some r else none := rfl
@[ps] theorem eatP_ident : eatP s (.atom (.ident x) :: r) = none := rfl
@[ps] theorem eatP_lit : eatP s (.atom (.lit x) :: r) = none := rfl
@[ps] theorem eatP_group : eatP s (.group d us :: r) = none := rfl
@[ps] theorem eatP_crate : eatP s (.crate :: r) = none := rfl
@[ps] theorem eatP_ty : eatP s (.ty t :: r) = none := rfl
@[ps] theorem eatP_frag : eatP s (.frag k us :: r) = none := rfl
@[ps] theorem eatK_nil : eatK s [] = none := rfl
@[ps] theorem eatK_punct : eatK s (.atom (.punct x) :: r) = none := rfl
@[ps] theorem eatK_ident : eatK s (.atom (.ident x) :: r) = if x = s then some r else none := rfl
@[ps] theorem eatK_lit : eatK s (.atom (.lit x) :: r) = none := rfl
@[ps] theorem eatK_group : eatK s (.group d us :: r) = none := rfl
@[ps] theorem eatK_crate : eatK s (.crate :: r) = none := rfl
@[ps] theorem eatK_ty : eatK s (.ty t :: r) = none := rfl
@[ps] theorem eatK_frag : eatK s (.frag k us :: r) = none := rfl

attribute [ps] eatMut eatVis

@[ps] theorem eatLife_nil : eatLife [] = [] := rfl
@[ps] theorem eatLife_ident : eatLife (.atom (.ident x) :: r) = .atom (.ident x) :: r := rfl
@[ps] theorem eatLife_group : eatLife (.group d us :: r) = .group d us :: r := rfl
@[ps] theorem eatLife_crate : eatLife (.crate :: r) = .crate :: r := rfl
@[ps] theorem eatLife_ty : eatLife (.ty t :: r) = .ty t :: r := rfl
theorem eatLife_punct (h : ¬ x = "'") : eatLife (.atom (.punct x) :: r) = .atom (.punct x) :: r := by
  unfold eatLife
  split
  · rename_i h1
    simp only [List.cons.injEq, TT.atom.injEq, Atom.punct.injEq] at h1
    rw [if_neg (by rw [← h1.1]; exact h)]
    simp [h1]
  · rfl
@[ps] theorem eatLife_comma : eatLife (.atom (.punct ",") :: r) = .atom (.punct ",") :: r := eatLife_punct _ _ (by decide)
@[ps] theorem eatLife_gt : eatLife (.atom (.punct ">") :: r) = .atom (.punct ">") :: r := eatLife_punct _ _ (by decide)
end

/-! ## Types -/

section
variable (n : Nat) (s x : String) (r us : List TT) (d : Delim) (t : Ty)

@[ps] theorem pTy_ty : pTy (n + 1) (.ty t :: r) = some (.user t, r) := rfl
@[ps] theorem pTy_ref : pTy (n + 1) (.atom (.punct "&") :: r) = match eatMut (eatLife r) with
    | (m, r) => match pTy n r with
      | some (t, r) => some (.ref m t, r)
      | none => none := rfl
@[ps] theorem pTy_group : pTy (n + 1) (.group .paren us :: r) = match pTys n us with
    | some (ts, []) => some (.tuple ts, r)
    | _ => none := rfl
@[ps] theorem pTy_ident : pTy (n + 1) (.atom (.ident x) :: r) = match pTyPath n (.atom (.ident x) :: r) with
    | some (p, r) => some (.path p, r)
    | none => none := rfl
@[ps] theorem pTy_crate : pTy (n + 1) (.crate :: r) = match pTyPath n (.crate :: r) with
    | some (p, r) => some (.path p, r)
    | none => none := rfl

@[ps] theorem pTys_nil : pTys (n + 1) [] = some ([], []) := rfl
@[ps] theorem pTys_ty : pTys (n + 1) (.ty t :: r) = match pTy n (.ty t :: r) with
    | none => none
    | some (t, r) => match eatP "," r with
      | some r => match pTys n r with
        | some (ts, r) => some (t :: ts, r)
        | none => none
      | none => some ([t], r) := rfl
@[ps] theorem pTys_ident : pTys (n + 1) (.atom (.ident x) :: r) = match pTy n (.atom (.ident x) :: r) with
    | none => none
    | some (t, r) => match eatP "," r with
      | some r => match pTys n r with
        | some (ts, r) => some (t :: ts, r)
        | none => none
      | none => some ([t], r) := rfl
@[ps] theorem pTys_group : pTys (n + 1) (.group d us :: r) = match pTy n (.group d us :: r) with
    | none => none
    | some (t, r) => match eatP "," r with
      | some r => match pTys n r with
        | some (ts, r) => some (t :: ts, r)
        | none => none
      | none => some ([t], r) := rfl

@[ps] theorem pTyPath_ident : pTyPath (n + 1) (.atom (.ident x) :: r) =
    match (match eatP "<" r with
      | some r => match pTys n r with
        | some (as, r) => match eatP ">" r with
          | some r => some (as, r)
          | none => none
        | none => none
      | none => some ([], r)) with
    | none => none
    | some (as, r) => match eatP "::" r with
      | some r' => match pTyPath n r' with
        | some (p, r) => some ((x, as) :: p, r)
        | none => none
      | none => some ([(x, as)], r) := rfl
@[ps] theorem pTyPath_crate : pTyPath (n + 1) (.crate :: r) =
    match (match eatP "<" r with
      | some r => match pTys n r with
        | some (as, r) => match eatP ">" r with
          | some r => some (as, r)
          | none => none
        | none => none
      | none => some ([], r)) with
    | none => none
    | some (as, r) => match eatP "::" r with
      | some r' => match pTyPath n r' with
        | some (p, r) => some (("crate", as) :: p, r)
        | none => none
      | none => some ([("crate", as)], r) := rfl

/-! ## Paths -/

/-- What follows a segment of a path. -/
def pathRest (n : Nat) (x : String) (r : List TT) : Option (RPath × List TT) := match eatP "::" r with
  | none => some ([(x, [])], r)
  | some r' => match eatP "<" r' with
    | none => match pPath n r' with
      | some (p, r) => some ((x, []) :: p, r)
      | none => none
    | some r'' => match pTys n r'' with
      | none => none
      | some (as, r) => match eatP ">" r with
        | none => none
        | some r => match eatP "::" r with
          | none => some ([(x, as)], r)
          | some r => match pPath n r with
            | some (p, r) => some ((x, as) :: p, r)
            | none => none

@[ps] theorem pPath_ident : pPath (n + 1) (.atom (.ident x) :: r) = pathRest n x r := rfl
@[ps] theorem pPath_crate : pPath (n + 1) (.crate :: r) = pathRest n "crate" r := rfl
@[ps] theorem pPath_frag : pPath (n + 1) (.frag .path us :: r) = match pPath n us with
    | some (p, []) => some (p, r)
    | _ => none := rfl
attribute [ps] pathRest

end

/-! ## Patterns -/

section
variable (n : Nat) (s x : String) (r us : List TT) (d : Delim) (t : Ty)

@[ps] theorem pPat_wild : pPat (n + 1) (.atom (.punct "_") :: r) = some (.wild, r) := rfl
@[ps] theorem pPat_ident [IsName x] : pPat (n + 1) (.atom (.ident x) :: r) = match pPath n (.atom (.ident x) :: r) with
    | none => none
    | some (p, .group .paren us :: r) => match pPats n us with
      | some ps => some (.call p ps, r)
      | none => none
    | some (p, .group .brace us :: r) => match pFieldPats n us with
      | some fs => some (.struct p fs, r)
      | none => none
    | some ([(x, [])], r) => some (.bind x, r)
    | some (p, r) => some (.path p, r) := by
  simp only [pPat, eatK_ident, ne_mut, ne_ref, if_false]
  rfl

@[ps] theorem pPats_nil : pPats (n + 1) [] = some [] := rfl
@[ps] theorem pPats_cons (u : TT) : pPats (n + 1) (u :: r) = match pPat n (u :: r) with
    | none => none
    | some (p, []) => some [p]
    | some (p, r) => match eatP "," r with
      | some r => match pPats n r with
        | some ps => some (p :: ps)
        | none => none
      | none => none := rfl
@[ps] theorem pFieldPats_nil : pFieldPats (n + 1) [] = some [] := rfl
@[ps] theorem pFieldPats_ident : pFieldPats (n + 1) (.atom (.ident x) :: r) = match (match eatP ":" r with
        | some r => pPat n r
        | none => some (.bind x, r)) with
      | none => none
      | some (p, []) => some [(x, p)]
      | some (p, r) => match eatP "," r with
        | some r => match pFieldPats n r with
          | some ps => some ((x, p) :: ps)
          | none => none
        | none => none := rfl
end

/-! ## Expressions -/

section
variable (n : Nat) (ns : Bool) (prec : Nat) (s x : String) (r us ts : List TT) (d : Delim) (t : Ty) (e : Expr) (k : Kind)

@[ps] theorem binOp_nil : binOp [] = none := rfl
@[ps] theorem binOp_ident : binOp (.atom (.ident x) :: r) = none := rfl
@[ps] theorem binOp_group : binOp (.group d us :: r) = none := rfl
@[ps] theorem binOp_comma : binOp (.atom (.punct ",") :: r) = none := rfl
@[ps] theorem binOp_semi : binOp (.atom (.punct ";") :: r) = none := rfl
@[ps] theorem binOp_arrow : binOp (.atom (.punct "=>") :: r) = none := rfl
@[ps] theorem binOp_eq : binOp (.atom (.punct "==") :: r) = some (.eq, 6, r) := rfl

@[ps] theorem pExpr_s : pExpr (n + 1) ns prec ts = match pUnary n ns ts with
    | none => none
    | some (e, r) => match pCasts n e r with
      | none => none
      | some (e, r) => pBin n ns prec e r := rfl
@[ps] theorem pCasts_s : pCasts (n + 1) e ts = match eatK "as" ts with
    | none => some (e, ts)
    | some r => match pTy n r with
      | none => none
      | some (t, r) => pCasts n (.cast e t) r := rfl
@[ps] theorem pBin_s : pBin (n + 1) ns prec e ts = match binOp ts with
    | none => some (e, ts)
    | some (op, p, r) =>
      if p < prec then some (e, ts)
      else match pExpr n ns (if p = 1 then 1 else p + 1) r with
        | none => none
        | some (e', r) => pBin n ns prec (.bin op e e') r := rfl
@[ps] theorem pUnary_ref : pUnary (n + 1) ns (.atom (.punct "&") :: r) = match eatMut r with
    | (m, r) => match pUnary n ns r with
      | some (e, r) => some (.ref m e, r)
      | none => none := rfl
@[ps] theorem pUnary_deref : pUnary (n + 1) ns (.atom (.punct "*") :: r) = (pUnary n ns r).map fun x => (.un .deref x.1, x.2) := rfl
@[ps] theorem pUnary_attr : pUnary (n + 1) ns (.atom (.punct "#") :: .group .bracket us :: r) = pUnary n ns r := rfl
@[ps] theorem pUnary_ident : pUnary (n + 1) ns (.atom (.ident x) :: r) = match pPrimary n ns (.atom (.ident x) :: r) with
    | none => none
    | some (e, r) => pPostfix n e r := rfl
@[ps] theorem pUnary_lit : pUnary (n + 1) ns (.atom (.lit x) :: r) = match pPrimary n ns (.atom (.lit x) :: r) with
    | none => none
    | some (e, r) => pPostfix n e r := rfl
@[ps] theorem pUnary_crate : pUnary (n + 1) ns (.crate :: r) = match pPrimary n ns (.crate :: r) with
    | none => none
    | some (e, r) => pPostfix n e r := rfl
@[ps] theorem pUnary_group : pUnary (n + 1) ns (.group d us :: r) = match pPrimary n ns (.group d us :: r) with
    | none => none
    | some (e, r) => pPostfix n e r := rfl
@[ps] theorem pUnary_frag : pUnary (n + 1) ns (.frag k us :: r) = match pPrimary n ns (.frag k us :: r) with
    | none => none
    | some (e, r) => pPostfix n e r := rfl

@[ps] theorem pPostfix_nil : pPostfix (n + 1) e [] = some (e, []) := rfl
@[ps] theorem pPostfix_ident : pPostfix (n + 1) e (.atom (.ident x) :: r) = some (e, .atom (.ident x) :: r) := rfl
@[ps] theorem pPostfix_brace : pPostfix (n + 1) e (.group .brace us :: r) = some (e, .group .brace us :: r) := rfl
@[ps] theorem pPostfix_call : pPostfix (n + 1) e (.group .paren us :: r) = match pExprs n us with
    | some es => pPostfix n (.call e es) r
    | none => none := rfl
@[ps] theorem pPostfix_method : pPostfix (n + 1) e (.atom (.punct ".") :: .atom (.ident x) :: .group .paren us :: r) = match pExprs n us with
    | some es => pPostfix n (.method e x [] es) r
    | none => none := rfl
@[ps] theorem pPostfix_field_nil : pPostfix (n + 1) e [.atom (.punct "."), .atom (.ident x)] = pPostfix n (.field e x) [] := rfl
@[ps] theorem pPostfix_targs : pPostfix (n + 1) e (.atom (.punct ".") :: .atom (.ident x) :: .atom (.punct "::") :: .atom (.punct "<") :: r) =
    match pTys n r with
    | none => none
    | some (as, r) => match eatP ">" r with
      | some (.group .paren us :: r) => match pExprs n us with
        | some es => pPostfix n (.method e x as es) r
        | none => none
      | _ => none := rfl
@[ps] theorem pPostfix_lit : pPostfix (n + 1) e (.atom (.punct ".") :: .atom (.lit x) :: r) = pPostfix n (.field e x) r := rfl
theorem pPostfix_punct (h : ¬ s = ".") : pPostfix (n + 1) e (.atom (.punct s) :: r) = some (e, .atom (.punct s) :: r) := by
  unfold pPostfix
  split <;> simp_all
@[ps] theorem pPostfix_comma : pPostfix (n + 1) e (.atom (.punct ",") :: r) = some (e, .atom (.punct ",") :: r) := pPostfix_punct _ _ _ _ (by decide)
@[ps] theorem pPostfix_semi : pPostfix (n + 1) e (.atom (.punct ";") :: r) = some (e, .atom (.punct ";") :: r) := pPostfix_punct _ _ _ _ (by decide)
@[ps] theorem pPostfix_arrow : pPostfix (n + 1) e (.atom (.punct "=>") :: r) = some (e, .atom (.punct "=>") :: r) := pPostfix_punct _ _ _ _ (by decide)
@[ps] theorem pPostfix_eq : pPostfix (n + 1) e (.atom (.punct "==") :: r) = some (e, .atom (.punct "==") :: r) := pPostfix_punct _ _ _ _ (by decide)

@[ps] theorem pExprs_nil : pExprs (n + 1) [] = some [] := rfl
@[ps] theorem pExprs_cons (u : TT) : pExprs (n + 1) (u :: r) = match pExpr n false 1 (u :: r) with
    | none => none
    | some (e, []) => some [e]
    | some (e, r) => match eatP "," r with
      | some r => (pExprs n r).map (e :: ·)
      | none => none := rfl
@[ps] theorem pFields_nil : pFields (n + 1) [] = some [] := rfl
@[ps] theorem pFields_ident : pFields (n + 1) (.atom (.ident x) :: r) = match (match eatP ":" r with
        | some r => pExpr n false 1 r
        | none => some (.path [(x, [])], r)) with
      | none => none
      | some (e, []) => some [(x, e)]
      | some (e, r) => match eatP "," r with
        | some r => (pFields n r).map ((x, e) :: ·)
        | none => none := rfl

theorem pArms_cons (u : TT) : pArms (n + 1) (u :: ts) = match pPat n (u :: ts) with
    | none => none
    | some (p, r) =>
      match (match eatK "if" r with
        | none => some (none, r)
        | some r => (pExpr n false 1 r).map fun x => (some x.1, x.2)) with
      | none => none
      | some (g, r) => match eatP "=>" r with
        | none => none
        | some r => match pExpr n false 1 r with
          | none => none
          | some (e, r) =>
            (pArms n (match eatP "," r with
              | some r => r
              | none => r)).map ((p, g, e) :: ·) := rfl
@[ps] theorem pArms_nil : pArms (n + 1) [] = some [] := rfl

@[ps] theorem pPrimary_expr : pPrimary (n + 1) ns (.frag .expr us :: r) = match pExpr n false 1 us with
    | some (e, []) => some (e, r)
    | _ => none := rfl
@[ps] theorem pPrimary_lit : pPrimary (n + 1) ns (.atom (.lit s) :: r) = some (.lit s, r) := rfl
@[ps] theorem pPrimary_paren : pPrimary (n + 1) ns (.group .paren us :: r) = match pExprs n us with
    | some [e] => some ((match us.getLast? with
      | some (.atom (.punct s)) => if s = "," then .tuple [e] else e
      | _ => e), r)
    | some es => some (.tuple es, r)
    | none => none := rfl
@[ps] theorem pPrimary_bracket : pPrimary (n + 1) ns (.group .bracket us :: r) = (pExprs n us).map fun es => (.array es, r) := rfl
@[ps] theorem pPrimary_brace : pPrimary (n + 1) ns (.group .brace us :: r) = (pBlock n us).map fun ss => (.block ss, r) := rfl
@[ps] theorem pPrimary_unsafe : pPrimary (n + 1) ns (.atom (.ident "unsafe") :: .group .brace us :: r) =
    (pBlock n us).map fun ss => (.block ss, r) := rfl
@[ps] theorem pPrimary_match : pPrimary (n + 1) ns (.atom (.ident "match") :: r) = match pExpr n true 1 r with
    | some (e, .group .brace us :: r) => (pArms n us).map fun as => (.mtch e as, r)
    | _ => none := rfl
@[ps] theorem pPrimary_ident [IsName x] : pPrimary (n + 1) ns (.atom (.ident x) :: r) = pPathExpr n ns (.atom (.ident x) :: r) := by
  simp only [pPrimary, ne_unsafe, ne_if, ne_match, if_false]
@[ps] theorem pPrimary_self : pPrimary (n + 1) ns (.atom (.ident "self") :: r) = pPathExpr n ns (.atom (.ident "self") :: r) := rfl
@[ps] theorem pPrimary_crate : pPrimary (n + 1) ns (.crate :: r) = pPathExpr n ns (.crate :: r) := rfl
@[ps] theorem pPrimary_path : pPrimary (n + 1) ns (.frag .path us :: r) = pPathExpr n ns (.frag .path us :: r) := rfl
@[ps] theorem pPathExpr_s : pPathExpr (n + 1) ns ts = match pPath n ts with
    | none => none
    | some (p, r) => match eatP "!" r, p with
      | some (.group _ us :: r), [(m, [])] => (pExprs n us).map fun es => (.mac m es, r)
      | _, p => match ns, r with
        | false, .group .brace us :: r => (pFields n us).map fun fs => (.struct p fs, r)
        | _, r => some (.path p, r) := rfl

end

/-! ## Statements -/

section
variable (n : Nat) (x : String) (r us a : List TT) (d : Delim) (attrs : List (List TT)) (k : Kind)

@[ps] theorem pAttrs_nil : pAttrs [] = ([], []) := rfl
@[ps] theorem pAttrs_attr : pAttrs (.atom (.punct "#") :: .group .bracket a :: r) = (a :: (pAttrs r).1, (pAttrs r).2) := rfl
@[ps] theorem pAttrs_inner : pAttrs (.atom (.punct "#") :: .atom (.punct "!") :: .group .bracket a :: r) = pAttrs r := rfl
@[ps] theorem pAttrs_ident : pAttrs (.atom (.ident x) :: r) = ([], .atom (.ident x) :: r) := rfl
@[ps] theorem pAttrs_crate : pAttrs (.crate :: r) = ([], .crate :: r) := rfl
@[ps] theorem pAttrs_group : pAttrs (.group d us :: r) = ([], .group d us :: r) := rfl
@[ps] theorem pAttrs_frag : pAttrs (.frag k us :: r) = ([], .frag k us :: r) := rfl

/-- A statement that is no item and no `let`, and those after it. -/
def pStmtE (n : Nat) (ts : List TT) : Option (List Stmt) := match pExpr n false 1 ts with
  | none => none
  | some (e, r) => match eatP ";" r with
    | some r => (pBlock n r).map (.semi e :: ·)
    | none => match r with
      | [] => some [.tail e]
      | r => if blockLike e then (pBlock n r).map (.tail e :: ·) else none
attribute [ps] pStmtE blockLike

/-- A statement, after its attributes, and those after it. -/
def pStmt (n : Nat) (attrs : List (List TT)) (ts : List TT) : Option (List Stmt) := match ts with
  | [] => some []
  | ts => match eatK "use" ts with
    | some r => (pBlock n (skipSemi r)).map (.useS :: ·)
    | none => match eatK "const" ts with
      | some (.atom (.ident x) :: r) => match eatP ":" r with
        | none => none
        | some r => match pTy n r with
          | none => none
          | some (t, r) => match eatP "=" r with
            | none => none
            | some r => match pExpr n false 1 r with
              | none => none
              | some (e, r) => match eatP ";" r with
                | none => none
                | some r => (pBlock n r).map (.constS x t e :: ·)
      | some _ => none
      | none => match eatK "enum" ts with
        | some (.atom (.ident x) :: .group .brace us :: r) => match variantNames us with
          | none => none
          | some vs => (pBlock n r).map (.enumS attrs x vs :: ·)
        | some _ => none
        | none => match eatK "struct" ts with
          | some (.atom (.ident x) :: .group .brace us :: r) => match pTyped n us with
            | none => none
            | some fs => (pBlock n r).map (.structS true attrs x fs :: ·)
          | some (.atom (.ident x) :: .group .paren us :: r) => match pTys n us with
            | some (tys, []) => match eatP ";" r with
              | none => none
              | some r => (pBlock n r).map (.structS false attrs x (positional tys) :: ·)
            | _ => none
          | some _ => none
          | none => match eatK "let" ts with
            | some r => match pPat n r with
              | none => none
              | some (p, r) =>
                match (match eatP ":" r with
                  | none => some (none, r)
                  | some r => (pTy n r).map fun x => (some x.1, x.2)) with
                | none => none
                | some (t, r) => match eatP "=" r with
                  | none => none
                  | some r => match pExpr n false 1 r with
                    | none => none
                    | some (e, r) => match eatP ";" r with
                      | none => none
                      | some r => (pBlock n r).map (.letS p t e :: ·)
            | none => pStmtE n ts

@[ps] theorem pBlock_s (ts : List TT) : pBlock (n + 1) ts = pStmt n (pAttrs ts).1 (pAttrs ts).2 := rfl
@[ps] theorem pStmt_nil : pStmt n attrs [] = some [] := rfl
@[ps] theorem pStmt_use : pStmt n attrs (.atom (.ident "use") :: r) = (pBlock n (skipSemi r)).map (.useS :: ·) := rfl
@[ps] theorem pStmt_const : pStmt n attrs (.atom (.ident "const") :: .atom (.ident x) :: .atom (.punct ":") :: r) = match pTy n r with
    | none => none
    | some (t, r) => match eatP "=" r with
      | none => none
      | some r => match pExpr n false 1 r with
        | none => none
        | some (e, r) => match eatP ";" r with
          | none => none
          | some r => (pBlock n r).map (.constS x t e :: ·) := rfl
@[ps] theorem pStmt_enum : pStmt n attrs (.atom (.ident "enum") :: .atom (.ident x) :: .group .brace us :: r) = match variantNames us with
    | none => none
    | some vs => (pBlock n r).map (.enumS attrs x vs :: ·) := rfl
@[ps] theorem pStmt_struct : pStmt n attrs (.atom (.ident "struct") :: .atom (.ident x) :: .group .brace us :: r) = match pTyped n us with
    | none => none
    | some fs => (pBlock n r).map (.structS true attrs x fs :: ·) := rfl
@[ps] theorem pStmt_tstruct : pStmt n attrs (.atom (.ident "struct") :: .atom (.ident x) :: .group .paren us :: .atom (.punct ";") :: r) =
    match pTys n us with
    | some (tys, []) => (pBlock n r).map (.structS false attrs x (positional tys) :: ·)
    | _ => none := rfl
@[ps] theorem pStmt_let : pStmt n attrs (.atom (.ident "let") :: r) = match pPat n r with
    | none => none
    | some (p, r) =>
      match (match eatP ":" r with
        | none => some (none, r)
        | some r => (pTy n r).map fun x => (some x.1, x.2)) with
      | none => none
      | some (t, r) => match eatP "=" r with
        | none => none
        | some r => match pExpr n false 1 r with
          | none => none
          | some (e, r) => match eatP ";" r with
            | none => none
            | some r => (pBlock n r).map (.letS p t e :: ·) := rfl
@[ps] theorem pStmt_ident [IsName x] : pStmt n attrs (.atom (.ident x) :: r) = pStmtE n (.atom (.ident x) :: r) := by
  simp only [pStmt, eatK_ident, ne_use, ne_const, ne_enum, ne_struct, ne_let, if_false]
@[ps] theorem pStmt_unsafe : pStmt n attrs (.atom (.ident "unsafe") :: r) = pStmtE n (.atom (.ident "unsafe") :: r) := rfl
@[ps] theorem pStmt_match : pStmt n attrs (.atom (.ident "match") :: r) = pStmtE n (.atom (.ident "match") :: r) := rfl
@[ps] theorem pStmt_crate : pStmt n attrs (.crate :: r) = pStmtE n (.crate :: r) := rfl
@[ps] theorem pStmt_group : pStmt n attrs (.group d us :: r) = pStmtE n (.group d us :: r) := rfl
@[ps] theorem pStmt_frag : pStmt n attrs (.frag k us :: r) = pStmtE n (.frag k us :: r) := rfl

end

/-! ## Names in the generated code -/

section
instance : IsName "core" := ⟨by decide⟩
instance : IsName "__tagged_box_enum_counter" := ⟨by decide⟩
instance : IsName "__TAGGED_BOX_TOTAL_VARIANTS" := ⟨by decide⟩
instance : IsName "discrim" := ⟨by decide⟩
instance : IsName "discriminant" := ⟨by decide⟩
instance : IsName "panic" := ⟨by decide⟩
instance : IsName "stringify" := ⟨by decide⟩
instance : IsName "tuple" := ⟨by decide⟩
instance : IsName "variant" := ⟨by decide⟩
instance : IsName "callback" := ⟨by decide⟩
instance : IsName "tagged" := ⟨by decide⟩
instance : IsName "var" := ⟨by decide⟩
instance : IsName "val" := ⟨by decide⟩
instance : IsName "Self" := ⟨by decide⟩
end

/-! ## Lists -/

@[ps] theorem toTT_string (x : String) : ToTT.toTT x = [TT.atom (.ident x)] := rfl
@[ps] theorem toTT_ty (t : Ty) : ToTT.toTT t = [TT.ty t] := rfl
@[ps] theorem toTT_tt (t : TT) : ToTT.toTT t = [t] := rfl
@[ps] theorem toTT_list (ts : List TT) : ToTT.toTT ts = ts := rfl
attribute [ps] List.cons_append List.nil_append

theorem isName_tail {x : String} {xs : List String} (h : ∀ y ∈ x :: xs, IsName y) : ∀ y ∈ xs, IsName y :=
  fun y hy => h y (List.mem_cons_of_mem _ hy)

theorem pTys_tyList : ∀ (tys : List Ty) (n : Nat), tys.length + 2 ≤ n → pTys n (tyList tys) = some (tys.map .user, [])
  | [], n, h => by
    obtain ⟨n, rfl⟩ : ∃ m, n = m + 1 := ⟨n - 1, by omega⟩
    rfl
  | [t], n, h => by
    obtain ⟨n, rfl⟩ : ∃ m, n = m + 2 := ⟨n - 2, by simp at h; omega⟩
    rfl
  | t :: t' :: ts, n, h => by
    obtain ⟨n, rfl⟩ : ∃ m, n = m + 2 := ⟨n - 2, by simp at h; omega⟩
    have ih := pTys_tyList (t' :: ts) (n + 1) (by simp at h ⊢; omega)
    simp only [tyList, List.map_cons, commas, ps] at ih ⊢
    simp only [pTys_ty, pTy_ty, eatP_punct, if_true, ih]

/-- Types in `<..>`. -/
theorem pTys_trailing : ∀ (tys : List Ty) (n : Nat), tys.length + 2 ≤ n → pTys n (tyListTrailing tys) = some (tys.map .user, [])
  | [], n, h => by
    obtain ⟨n, rfl⟩ : ∃ m, n = m + 1 := ⟨n - 1, by omega⟩
    rfl
  | t :: ts, n, h => by
    obtain ⟨n, rfl⟩ : ∃ m, n = m + 2 := ⟨n - 2, by simp at h; omega⟩
    have ih := pTys_trailing ts (n + 1) (by simp at h ⊢; omega)
    simp only [tyListTrailing, List.flatMap_cons, ps, List.map_cons] at ih ⊢
    simp only [if_true, ih]

theorem pTyped_fields : ∀ (ms : List (String × Ty)) (n : Nat), (∀ m ∈ ms, IsName m.1) → ms.length + 2 ≤ n →
    pTyped n (fieldList ms) = some (ms.map fun m => (m.1, .user m.2))
  | [], n, _, h => by
    obtain ⟨n, rfl⟩ : ∃ m, n = m + 1 := ⟨n - 1, by omega⟩
    rfl
  | [m], n, hm, h => by
    obtain ⟨n, rfl⟩ : ∃ m, n = m + 2 := ⟨n - 2, by simp at h; omega⟩
    have := hm m (by simp)
    simp [fieldList, commas, pTyped, ps]
  | m :: m' :: ms, n, hm, h => by
    obtain ⟨n, rfl⟩ : ∃ m, n = m + 2 := ⟨n - 2, by simp at h; omega⟩
    have ih := pTyped_fields (m' :: ms) (n + 1) (fun x hx => hm x (List.mem_cons_of_mem _ hx)) (by simp at h ⊢; omega)
    have := hm m (by simp)
    simp only [fieldList, List.map_cons, commas, ps] at ih ⊢
    rw [pTyped]
    simp only [ps, if_false, if_true, ih, Option.map_some]

theorem pPats_names : ∀ (xs : List String) (n : Nat), (∀ x ∈ xs, IsName x) → xs.length + 4 ≤ n →
    pPats n (nameList xs) = some (xs.map .bind)
  | [], n, _, h => by
    obtain ⟨n, rfl⟩ : ∃ m, n = m + 1 := ⟨n - 1, by omega⟩
    rfl
  | [x], n, hm, h => by
    obtain ⟨n, rfl⟩ : ∃ m, n = m + 4 := ⟨n - 4, by simp at h; omega⟩
    have := hm x (by simp)
    simp [nameList, commas, ps]
  | x :: y :: xs, n, hm, h => by
    obtain ⟨n, rfl⟩ : ∃ m, n = m + 4 := ⟨n - 4, by simp at h; omega⟩
    have ih := pPats_names (y :: xs) (n + 3) (isName_tail hm) (by simp at h ⊢; omega)
    have := hm x (by simp)
    simp only [nameList, List.map_cons, commas, ps] at ih ⊢
    simp [ps, ih]

theorem pFieldPats_names : ∀ (xs : List String) (n : Nat), xs.length + 2 ≤ n →
    pFieldPats n (nameList xs) = some (xs.map fun x => (x, .bind x))
  | [], n, h => by
    obtain ⟨n, rfl⟩ : ∃ m, n = m + 1 := ⟨n - 1, by omega⟩
    rfl
  | [x], n, h => by
    obtain ⟨n, rfl⟩ : ∃ m, n = m + 2 := ⟨n - 2, by simp at h; omega⟩
    rfl
  | x :: y :: xs, n, h => by
    obtain ⟨n, rfl⟩ : ∃ m, n = m + 2 := ⟨n - 2, by simp at h; omega⟩
    have ih := pFieldPats_names (y :: xs) (n + 1) (by simp at h ⊢; omega)
    simp only [nameList, List.map_cons, commas, ps] at ih ⊢
    simp [ps, ih]

theorem pFields_names : ∀ (xs : List String) (n : Nat), xs.length + 2 ≤ n →
    pFields n (nameList xs) = some (xs.map fun x => (x, .path [(x, [])]))
  | [], n, h => by
    obtain ⟨n, rfl⟩ : ∃ m, n = m + 1 := ⟨n - 1, by omega⟩
    rfl
  | [x], n, h => by
    obtain ⟨n, rfl⟩ : ∃ m, n = m + 2 := ⟨n - 2, by simp at h; omega⟩
    rfl
  | x :: y :: xs, n, h => by
    obtain ⟨n, rfl⟩ : ∃ m, n = m + 2 := ⟨n - 2, by simp at h; omega⟩
    have ih := pFields_names (y :: xs) (n + 1) (by simp at h ⊢; omega)
    simp only [nameList, List.map_cons, commas, ps] at ih ⊢
    simp [ps, ih]

theorem variantNames_list : ∀ (xs : List String), variantNames (variantList xs) = some xs
  | [] => rfl
  | x :: xs => by
    have ih := variantNames_list xs
    simp only [variantList, List.flatMap_cons, ps] at ih ⊢
    simp [variantNames, ih]

/-- A comma-separated list in which every element parses. -/
theorem pExprs_commas {α : Type} (f : α → List TT) (g : α → Expr) (k : Nat) (P : α → Prop)
    (hf : ∀ a n r, P a → k ≤ n → (r = [] ∨ ∃ r', r = .atom (.punct ",") :: r') → pExpr n false 1 (f a ++ r) = some (g a, r))
    (hn : ∀ a, f a ≠ []) (tr : Bool) : ∀ (xs : List α) (n : Nat), (∀ x ∈ xs, P x) → (xs = [] → tr = false) → xs.length + k + 1 ≤ n →
    pExprs n (commas (xs.map f) ++ if tr then [.atom (.punct ",")] else []) = some (xs.map g)
  | [], n, _, ht, h => by
    obtain ⟨n, rfl⟩ : ∃ m, n = m + 1 := ⟨n - 1, by omega⟩
    simp [ht rfl, commas, pExprs_nil]
  | [x], n, hp, _, h => by
    obtain ⟨n, rfl⟩ : ∃ m, n = m + 2 := ⟨n - 2, by simp at h; omega⟩
    have h1 := hf x (n + 1) (if tr then [.atom (.punct ",")] else []) (hp x (by simp)) (by simp at h; omega) (by cases tr <;> simp)
    simp only [List.map_cons, List.map_nil, commas]
    obtain ⟨t, us, hx⟩ := List.exists_cons_of_ne_nil (hn x)
    rw [hx, List.cons_append] at h1 ⊢
    rw [pExprs_cons, h1]
    cases tr <;> simp [eatP_punct, pExprs_nil]
  | x :: y :: xs, n, hp, _, h => by
    obtain ⟨n, rfl⟩ : ∃ m, n = m + 1 := ⟨n - 1, by simp at h; omega⟩
    have ih := pExprs_commas f g k P hf hn tr (y :: xs) n (fun z hz => hp z (List.mem_cons_of_mem _ hz)) (by simp) (by simp at h ⊢; omega)
    simp only [List.map_cons, commas, List.append_assoc, List.cons_append] at ih ⊢
    have h1 := hf x n (.atom (.punct ",") :: (commas (f y :: xs.map f) ++ if tr then [.atom (.punct ",")] else [])) (hp x (by simp))
      (by simp at h; omega) (.inr ⟨_, rfl⟩)
    obtain ⟨t, us, hx⟩ := List.exists_cons_of_ne_nil (hn x)
    rw [hx, List.cons_append] at h1 ⊢
    rw [pExprs_cons, h1]
    simp [eatP_punct, ih]

theorem pExprs_names (xs : List String) (n : Nat) (hm : ∀ x ∈ xs, IsName x) (h : xs.length + 9 ≤ n) :
    pExprs n (nameList xs) = some (xs.map fun x => .path [(x, [])]) := by
  have := pExprs_commas (fun x : String => [.atom (.ident x)]) (fun x => .path [(x, [])]) 8 (IsName ·) (by
    intro x n r hx hn hr
    obtain ⟨n, rfl⟩ : ∃ m, n = m + 8 := ⟨n - 8, by omega⟩
    rcases hr with rfl | ⟨r, rfl⟩ <;> simp [ps]) (by simp) false xs n hm (by simp) h
  simpa [nameList, toTT_string] using this

theorem pExprs_access (xs : List Nat) (n : Nat) (h : xs.length + 20 ≤ n) :
    pExprs n (accessList xs) = some (xs.map fun i => .field (.path [("tuple", [])]) (toString i)) := by
  have := pExprs_commas (fun i : Nat => [.atom (.ident "tuple"), .atom (.punct "."), .atom (.lit (toString i))])
    (fun i => .field (.path [("tuple", [])]) (toString i)) 19 (fun _ => True) (by
    intro x n r _ hn hr
    obtain ⟨n, rfl⟩ : ∃ m, n = m + 19 := ⟨n - 19, by omega⟩
    rcases hr with rfl | ⟨r, rfl⟩ <;> simp [ps]) (by simp) (decide (7 ≤ xs.length)) xs n (by simp) (by rintro rfl; rfl) h
  simpa [accessList, ps] using this

theorem pExprs_strings (ds : List VariantDef) (n : Nat) (hm : ∀ d ∈ ds, IsName d.name) (h : ds.length + 20 ≤ n) :
    pExprs n (commas (ds.map fun d => rust% "stringify!(«d.name»)")) = some (ds.map fun d => .mac "stringify" [.path [(d.name, [])]]) := by
  have := pExprs_commas (fun d : VariantDef => [.atom (.ident "stringify"), .atom (.punct "!"), .group .paren [.atom (.ident d.name)]])
    (fun d => .mac "stringify" [.path [(d.name, [])]]) 19 (fun d => IsName d.name) (by
    intro x n r hx hn hr
    obtain ⟨n, rfl⟩ : ∃ m, n = m + 19 := ⟨n - 19, by omega⟩
    rcases hr with rfl | ⟨r, rfl⟩ <;> simp [ps]) (by simp) false ds n hm (by simp) h
  simpa [ps] using this

end TB.Rust
