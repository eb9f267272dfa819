import Verif.Mbe.Match

/-!
# Matching by computation

`matchL` is defined by well-founded recursion, which the kernel does not compute with. `matchF` is the same function with a bound on the depth of
the matcher; `applyF_eq` says that with enough of it the results are the same.
-/

set_option autoImplicit false

namespace TB.Mbe

open TB.Macro

/-- `matchL`, at most `n` steps deep into the matcher. -/
def matchF (rc : Rustc) : Nat → (List TT → Bool) → List MP → List TT → MR (Env × List TT)
  | 0, _, _, _ => .fatal
  | n + 1, fol, ps, ts => match ps with
    | [] => .yes ([], ts)
    | .tok a :: ps => if headIs a ts then matchF rc n fol ps ts.tail else .no
    | .group d qs :: ps => match ts with
      | .group d' us :: r =>
        if d = d' then
          match matchF rc n List.isEmpty qs us with
          | .no => .no
          | .fatal => .fatal
          | .yes (e, []) => (matchF rc n fol ps r).map fun x => (e ++ x.1, x.2)
          | .yes (_, _ :: _) => .no
        else .no
      | _ => .no
    | .var x k :: ps => match parseFrag rc k ts with
      | .no => .no
      | .fatal => .fatal
      | .yes (t, r) => (matchF rc n fol ps r).map fun y => ((x, .one t) :: y.1, y.2)
    | .rep qs sep op :: ps =>
      match repMatch
          (matchF rc n (fun us => (match sep with
            | none => MP.startsL rc (fun _ => false) us qs
            | some a => headIs a us) || MP.startsL rc fol us ps) qs)
          (fun us => MP.startsL rc (fun _ => false) us qs) (fun us => MP.startsL rc fol us ps) sep op ts with
      | .no => .no
      | .fatal => .fatal
      | .yes (es, r) => (matchF rc n fol ps r).map fun y => (collect (MP.varsL qs) es ++ y.1, y.2)

mutual
/-- The depth of a matcher. -/
def MP.depth : MP → Nat
  | .tok _ => 0
  | .group _ ps => MP.depthL ps
  | .var _ _ => 0
  | .rep ps _ _ => MP.depthL ps
def MP.depthL : List MP → Nat
  | [] => 1
  | p :: ps => max (MP.depth p) (MP.depthL ps) + 1
end

theorem matchF_eq (rc : Rustc) : ∀ (n : Nat) (fol : List TT → Bool) (ps : List MP) (ts : List TT),
    MP.depthL ps ≤ n → matchF rc n fol ps ts = matchL rc fol ps ts
  | 0, _, ps, _, h => by cases ps <;> simp [MP.depthL] at h
  | n + 1, fol, [], ts, _ => by simp [matchF, matchL]
  | n + 1, fol, p :: ps, ts, h => by
    have hp : MP.depth p ≤ n := by simp [MP.depthL] at h; omega
    have hps : MP.depthL ps ≤ n := by simp [MP.depthL] at h; omega
    cases p with
    | tok a => simp only [matchF, matchL, matchF_eq rc n fol ps _ hps]
    | group d qs =>
      have hq : MP.depthL qs ≤ n := hp
      cases ts with
      | nil => simp [matchF, matchL]
      | cons t ts =>
        cases t <;> simp only [matchF, matchL, matchF_eq rc n fol ps _ hps, matchF_eq rc n _ qs _ hq] <;> rfl
    | var x k => simp only [matchF, matchL, matchF_eq rc n fol ps _ hps] <;> rfl
    | rep qs sep op =>
      have hq : MP.depthL qs ≤ n := hp
      have hf : ∀ f, matchF rc n f qs = matchL rc f qs := fun f => funext fun us => matchF_eq rc n f qs us hq
      simp only [matchF, matchL, hf, matchF_eq rc n fol ps _ hps]
      rfl

/-- `transL`, at most `n` steps deep into the transcriber. -/
def transF : Nat → Env → List MB → Option (List TT)
  | 0, _, _ => none
  | n + 1, e, bs => match bs with
    | [] => some []
    | .tok a :: bs => (transF n e bs).map (.atom a :: ·)
    | .crate :: bs => (transF n e bs).map (.crate :: ·)
    | .var x :: bs => match e.find x with
      | some (.one t) => (transF n e bs).map (t :: ·)
      | some (.many _) => none
      | none => (transF n e bs).map fun r => .atom (.punct "$") :: .atom (.ident x) :: r
    | .group d cs :: bs => match transF n e cs, transF n e bs with
      | some a, some b => some (.group d a :: b)
      | _, _ => none
    | .rep cs sep :: bs => match e.iters (MB.varsL cs) with
      | none => none
      | some k => match allSome ((List.range k).map fun i => transF n (e.at i) cs), transF n e bs with
        | some xs, some b => some (joinSep sep xs ++ b)
        | _, _ => none

mutual
/-- The depth of a transcriber. -/
def MB.depth : MB → Nat
  | .tok _ => 0
  | .crate => 0
  | .var _ => 0
  | .group _ bs => MB.depthL bs
  | .rep bs _ => MB.depthL bs
def MB.depthL : List MB → Nat
  | [] => 1
  | b :: bs => max (MB.depth b) (MB.depthL bs) + 1
end

theorem transF_eq : ∀ (n : Nat) (e : Env) (bs : List MB), MB.depthL bs ≤ n → transF n e bs = transL e bs
  | 0, _, bs, h => by cases bs <;> simp [MB.depthL] at h
  | n + 1, e, [], _ => by simp [transF, transL]
  | n + 1, e, b :: bs, h => by
    have hb : MB.depth b ≤ n := by simp [MB.depthL] at h; omega
    have hbs : MB.depthL bs ≤ n := by simp [MB.depthL] at h; omega
    cases b with
    | tok a => simp only [transF, transL, transF_eq n e bs hbs]
    | crate => simp only [transF, transL, transF_eq n e bs hbs]
    | var x =>
      simp only [transF, transL, transF_eq n e bs hbs]
      rfl
    | group d cs =>
      have hc : MB.depthL cs ≤ n := hb
      simp only [transF, transL, transF_eq n e bs hbs, transF_eq n e cs hc]
      rfl
    | rep cs sep =>
      have hc : MB.depthL cs ≤ n := hb
      have hf : ∀ e', transF n e' cs = transL e' cs := fun e' => transF_eq n e' cs hc
      simp only [transF, transL, transF_eq n e bs hbs, hf]
      rfl

/-- `applyRules` by computation. -/
def applyF (rc : Rustc) : List Rule → List TT → Option (List TT)
  | [], _ => none
  | (m, b) :: rs, ts => match matchF rc (MP.depthL m) List.isEmpty m ts with
    | .no => applyF rc rs ts
    | .fatal => none
    | .yes (e, []) => transF (MB.depthL b) e b
    | .yes (_, _ :: _) => applyF rc rs ts

theorem applyF_eq (rc : Rustc) (rs : List Rule) (ts : List TT) : applyRules rc rs ts = applyF rc rs ts := by
  induction rs with
  | nil => rfl
  | cons r rs ih =>
    obtain ⟨m, b⟩ := r
    simp only [applyRules, applyF, matchAll, matchF_eq rc _ _ m ts (Nat.le_refl _), ih, transF_eq _ _ b (Nat.le_refl _)]
    split <;> rename_i h <;> split at h <;> simp_all

end TB.Mbe
