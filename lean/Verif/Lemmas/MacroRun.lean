import Verif.Lemmas.MacroCheck
import Verif.Lemmas.Box

/-! # Behaviour of the generated code (no property theorems here) -/

set_option autoImplicit false

namespace TB.Macro

variable {rc : Rustc}

/-! ## Compiled declarations -/

theorem Compiled.wf {cfg : Config} {sn en : String} {hd : Bool} {ts : List Tok} {decl : List VariantDef} {P : Program}
    (h : Compiled rc cfg sn en hd ts decl P) : WellFormed rc cfg sn en hd decl ∧ P = programOf sn en hd decl := by
  obtain ⟨decl', h1, h2, h3⟩ := compile_ok.1 h.compiles
  cases h.syn.unique h1
  exact ⟨h2, h3⟩

/-! ## Values -/

theorem hasTypes_length : ∀ {tys : List Ty} {vs : List Bytes}, HasTypes rc tys vs → vs.length = tys.length
  | [], [], _ => rfl
  | [], _ :: _, h => by cases h
  | _ :: _, [], h => by cases h
  | _ :: _, _ :: _, h => by simp [hasTypes_length h.2]

theorem fieldsHave_iff : ∀ {fs : List (Nat × Leaf)} {tys : List Ty} {vs : List Bytes}, fs.map (·.2) = tys.map rc.leaf →
    (FieldsHave fs vs ↔ HasTypes rc tys vs)
  | [], [], [], _ => Iff.rfl
  | [], [], _ :: _, _ => Iff.rfl
  | [], _ :: _, _, h => by simp at h
  | _ :: _, [], _, h => by simp at h
  | _ :: _, _ :: _, [], _ => Iff.rfl
  | f :: fs, t :: ts, v :: vs, h => by
    simp only [List.map_cons, List.cons.injEq] at h
    show _ ∧ _ ↔ _ ∧ _
    rw [h.1, fieldsHave_iff h.2]

theorem structShape_has {tys : List Ty} {vs : List Bytes} : (structShape rc tys).Has vs ↔ HasTypes rc tys vs :=
  fieldsHave_iff (reprC_fields _)

theorem leaf_has {t : Ty} {v : Bytes} : (rc.leaf t).shape.Has [v] ↔ (rc.leaf t).Has v := by
  show _ ∧ True ↔ _
  simp

theorem structShape_wf (hrc : rc.OK) (tys : List Ty) : (structShape rc tys).WF :=
  reprC_wf (fun l hl => by
    obtain ⟨t, _, rfl⟩ := List.mem_map.1 hl
    exact hrc.leaf_wf t)

theorem shape_wf (hrc : rc.OK) {f : Fields} {sh : Shape} (h : f.shape rc = some sh) : sh.WF := by
  match f with
  | .unit => cases h
  | .tuple [] => cases h
  | .tuple [t] => cases h; exact (hrc.leaf_wf t).shape
  | .tuple (t :: t' :: ts) => cases h; exact structShape_wf hrc (t :: t' :: ts)
  | .record ms =>
    cases h
    rw [show ms.map (fun m => rc.leaf m.2) = (ms.map (·.2)).map rc.leaf by simp]
    exact structShape_wf hrc _

theorem shape_has {f : Fields} {p : Payload} (hp : HasFields rc f p) {sh : Shape} (h : f.shape rc = some sh) :
    sh.Has p.vals := by
  match f, p, hp with
  | .unit, _, _ => cases h
  | .tuple [], _, _ => cases h
  | .tuple [t], .tuple [v], hp => cases h; exact leaf_has.2 hp.1
  | .tuple [t], .tuple (_ :: _ :: _), hp => cases hp.2
  | .tuple (t :: t' :: ts), .tuple vs, hp => cases h; exact structShape_has.2 hp
  | .record ms, .record fs, hp =>
    cases h
    rw [show ms.map (fun m => rc.leaf m.2) = (ms.map (·.2)).map rc.leaf by simp]
    exact structShape_has.2 hp.2

/-! ## Names -/

theorem byName_self {fs : List (String × Bytes)} (hn : (fs.map (·.1)).Nodup) : byName (fs.map (·.1)) fs = fs.map (·.2) := by
  simp only [byName, List.map_map]
  apply List.map_congr_left
  intro f hf
  simp [lookupVar_mem hn hf]

theorem byName_zip {names : List String} {vs : List Bytes} (hn : names.Nodup) (hl : names.length = vs.length) :
    byName names (names.zip vs) = vs := by
  have h := lookupVar_zip (xs := vs) hn hl
  have : byName names (names.zip vs) = (names.map (fun a => lookupVar a (names.zip vs))).map (·.getD []) := by
    simp [byName]
  rw [this, h, List.map_map]
  exact List.map_id _

theorem accessFields_range (vs : List Bytes) : accessFields (List.range vs.length) vs = vs := by
  have : accessFields (List.range vs.length) vs = ((List.range vs.length).map (fun i => vs[i]?)).map (·.getD []) := by
    simp [accessFields]
  rw [this, getElem?_range, List.map_map]
  exact List.map_id _

theorem zip_names {fs : List (String × Bytes)} : (fs.map (·.1)).zip (fs.map (·.2)) = fs := by
  induction fs with
  | nil => rfl
  | cons f fs ih => simp [ih]

/-! ## Numbering -/

theorem idxOf_get {ns : List String} (hn : ns.Nodup) {i : Nat} {n : String} (h : ns[i]? = some n) : ns.idxOf n = i := by
  induction ns generalizing i with
  | nil => simp at h
  | cons x xs ih =>
    rw [List.nodup_cons] at hn
    cases i with
    | zero => simp at h; simp [h]
    | succ i =>
      rw [List.getElem?_cons_succ] at h
      have hne : x ≠ n := fun e => hn.1 (e ▸ List.mem_of_getElem? h)
      rw [List.idxOf_cons, beq_eq_false_iff_ne.2 hne, cond_false, ih hn.2 h]

variable {env : Env} {sn en : String} {hd : Bool} {decl : List VariantDef}

theorem counterU8_get (hn : (decl.map (·.name)).Nodup) {i : Nat} {d : VariantDef} (h : decl[i]? = some d) :
    counterU8 (programOf sn en hd decl) d.name = BitVec.ofNat 8 i := by
  show BitVec.ofNat 8 (List.idxOf _ (decl.map (·.name))) = _
  rw [idxOf_get hn (i := i) (by simp [h])]

theorem asDiscr_toNat (h8 : env.cfg.discrBits = 8) (x : BitVec 8) : (asDiscr env x).toNat = x.toNat := by
  simp only [asDiscr, BitVec.toNat_setWidth, h8]
  exact Nat.mod_eq_of_lt x.isLt

theorem discr_lt (h : env.OK) (b : TBox) : (b.discriminant env).toNat < 2 ^ env.cfg.freeBits := h.sane.fetch_lt _

theorem discr_lt_256 (h8 : env.cfg.discrBits = 8) (b : TBox) : (b.discriminant env).toNat < 256 := by
  have h1 : (b.discriminant env).toNat < 2 ^ env.cfg.discrBits := (b.discriminant env).isLt
  have : (2:Nat) ^ env.cfg.discrBits = 256 := by rw [h8]
  omega

theorem guard_iff (h8 : env.cfg.discrBits = 8) (hn : (decl.map (·.name)).Nodup) {i : Nat} {d : VariantDef}
    (h : decl[i]? = some d) (b : TBox) :
    guard env (programOf sn en hd decl) d.name b = true ↔ (b.discriminant env).toNat = i % 256 := by
  rw [guard, beq_iff_eq, ← BitVec.toNat_inj, asDiscr_toNat h8, counterU8_get hn h, BitVec.toNat_ofNat]

/-! ## Dispatch -/

/-- First-match dispatch over one arm per variant. -/
theorem dispatch {α γ : Type} {ctr : α → String} {run : α → γ} {g : VariantDef → α} {dflt : γ} (h8 : env.cfg.discrBits = 8)
    (hn : (decl.map (·.name)).Nodup) (hc : ∀ d, ctr (g d) = d.name) (b : TBox)
    {go : List α → γ} (h0 : go [] = dflt)
    (h1 : ∀ a as, go (a :: as) = if guard env (programOf sn en hd decl) (ctr a) b then run a else go as) :
    go (decl.map g) = match decl[(b.discriminant env).toNat]? with
      | some d => run (g d)
      | none => dflt := by
  have hlt := discr_lt_256 h8 b
  have key : ∀ (suf pre : List VariantDef), decl = pre ++ suf → pre.length ≤ (b.discriminant env).toNat →
      go (suf.map g) = match suf[(b.discriminant env).toNat - pre.length]? with
        | some d => run (g d)
        | none => dflt := by
    intro suf
    induction suf with
    | nil => intro pre _ _; simp [h0]
    | cons d ds ih =>
      intro pre he hp
      have hd : decl[pre.length]? = some d := by rw [he]; simp
      rw [List.map_cons, h1, hc]
      by_cases hg : (b.discriminant env).toNat = pre.length
      · rw [if_pos ((guard_iff h8 hn hd b).2 (by omega)), hg, Nat.sub_self]
        rfl
      · rw [if_neg (fun hx => hg (by have := (guard_iff h8 hn hd b).1 hx; omega))]
        rw [ih (pre ++ [d]) (by rw [he]; simp) (by simp; omega)]
        have : (b.discriminant env).toNat - pre.length = ((b.discriminant env).toNat - (pre ++ [d]).length) + 1 := by
          simp; omega
        rw [this, List.getElem?_cons_succ]
  have := key decl [] rfl (Nat.zero_le _)
  simpa using this

theorem firstRead_eq (h8 : env.cfg.discrBits = 8) (hn : (decl.map (·.name)).Nodup) (c : Bool) (b : TBox) :
    firstRead env rc (programOf sn en hd decl) b (decl.map (readArmOf c)) =
      match decl[(b.discriminant env).toNat]? with
      | some d => (readArmOf c d).run env rc (programOf sn en hd decl) b
      | none => M.panic .noVariant :=
  dispatch (ctr := ReadArm.ctr) (run := fun a => a.run env rc (programOf sn en hd decl) b) h8 hn (fun _ => rfl) b rfl
    (fun _ _ => rfl)

theorem firstRef_eq (h8 : env.cfg.discrBits = 8) (hn : (decl.map (·.name)).Nodup) {β : Type} (f : EVal → M β) (b : TBox) :
    firstRef env rc (programOf sn en hd decl) b f (decl.map refArmOf) =
      match decl[(b.discriminant env).toNat]? with
      | some d => do
          let (e, es) ← (refArmOf d).build env rc (programOf sn en hd decl) b
          M.cleanup es (do let r ← f e; pure (some r))
      | none => M.panic .noVariant :=
  dispatch (ctr := RefArm.ctr) (run := fun a => do
          let (e, es) ← a.build env rc (programOf sn en hd decl) b
          M.cleanup es (do let r ← f e; pure (some r))) h8 hn (fun _ => rfl) b rfl
    (fun _ _ => rfl)

/-! ## Building records -/

theorem lookupDef_of (hn : (decl.map (·.name)).Nodup) {d : VariantDef} (h : d ∈ decl) :
    lookupDef decl d.name = some d.fields := lookupDef_mem hn h

theorem buildRecord_eq (hn : (decl.map (·.name)).Nodup) {v : String} {ms : List (String × Ty)}
    (h : (⟨v, .record ms⟩ : VariantDef) ∈ decl) (hm : (ms.map (·.1)).Nodup) {fs : List (String × Bytes)}
    (hf : fs.map (·.1) = ms.map (·.1)) :
    buildRecord (programOf sn en hd decl) v fs = ⟨v, .record fs⟩ := by
  have : lookupDef (programOf sn en hd decl).defs v = some (.record ms) := lookupDef_of hn h
  simp only [buildRecord, this]
  congr 2
  rw [← hf, List.map_map]
  rw [← hf] at hm
  refine Eq.trans (List.map_congr_left (g := id) (fun f hfm => ?_)) (List.map_id fs)
  simp [lookupVar_mem hm hfm]

/-- Variables bound by destructuring a structure and used to build the record again. -/
theorem record_vars {names : List String} {vs : List Bytes} (hn : names.Nodup) (hl : names.length = vs.length) :
    names.zip (byName names (names.zip (byName names (names.zip vs)))) = names.zip vs := by
  rw [byName_zip hn hl, byName_zip hn hl]

/-! ## Reading -/

theorem Stores.isValue {s : State} {b : TBox} {i : Nat} {e : EVal} (h : Stores env rc decl s b i e) : IsValue rc decl i e := h.1

theorem Stores.discr {s : State} {b : TBox} {i : Nat} {e : EVal} (h : Stores env rc decl s b i e) :
    (b.discriminant env).toNat = i := h.2.1

theorem Stores.mono (hrc : rc.OK) {s s' : State} {b : TBox} {i : Nat} {e : EVal} (h : Stores env rc decl s b i e)
    (he : Extends s s') : Stores env rc decl s' b i e :=
  ⟨h.1, h.2.1, fun d hd sh hsh => (h.2.2 d hd sh hsh).mono (shape_wf hrc hsh) he⟩

/-- Tuple variants with two or more fields, and no others, are read by `from_tagged_box` at a Rust tuple type. -/
def TupleAgrees (env : Env) (rc : Rustc) (f : Fields) : Prop :=
  ∀ t t' ts, f = .tuple (t :: t' :: ts) → env.tuple ((t :: t' :: ts).map rc.leaf) = reprC ((t :: t' :: ts).map rc.leaf)

theorem intoInner_of {s : State} {b : TBox} {sh : Shape} {v : Val} {d : env.cfg.Discr} (h : Holds env s b sh v d) :
    b.intoInner env sh s = .ret v s := h.read

theorem readArm_run (hn : (decl.map (·.name)).Nodup) (hms : ∀ d ∈ decl, ∀ ms, d.fields = .record ms → (ms.map (·.1)).Nodup)
    {s : State} {b : TBox} {i : Nat} {e : EVal}
    (h : Stores env rc decl s b i e) {d : VariantDef} (hdi : decl[i]? = some d) {c : Bool}
    (hc : c = false → TupleAgrees env rc d.fields) :
    (readArmOf c d).run env rc (programOf sn en hd decl) b s = .ret e s := by
  obtain ⟨⟨d', hdi', hv, hf⟩, _, hh⟩ := h
  rw [hdi] at hdi'; cases hdi'
  have hmem := List.mem_of_getElem? hdi
  have hh' := hh d hdi
  obtain ⟨v, f⟩ := d
  obtain ⟨ev, p⟩ := e
  simp only at hv hf hh' hc
  subst hv
  match f, p, hf with
  | .unit, .unit, _ => rfl
  | .tuple [], .tuple [], _ => cases c <;> rfl
  | .tuple [t], .tuple [x], _ =>
    have hb := intoInner_of (hh' _ rfl)
    simp only [ReadArm.run, readArmOf]
    rw [M.bind_of_ret hb]
    rfl
  | .tuple [t], .tuple (_ :: _ :: _), hf => cases hf.2
  | .tuple (t :: t' :: ts), .tuple vs, hf =>
    have hb := intoInner_of (hh' _ rfl)
    have hl := hasTypes_length hf
    have hx : tupleExpOf (t :: t' :: ts).length = .access (List.range vs.length) := by
      rw [tupleExpOf, if_neg (by simp), hl]
    cases c with
    | true =>
      simp only [ReadArm.run, readArmOf, if_true, hx]
      rw [M.bind_of_ret (show b.intoInner env (structShape rc (t :: t' :: ts)) s = _ from hb)]
      show Out.ret _ s = _
      rw [Payload.vals, accessFields_range]
    | false =>
      simp only [ReadArm.run, readArmOf, hx, Bool.false_eq_true, if_false, tupleShape]
      rw [hc rfl t t' ts rfl, M.bind_of_ret hb]
      show Out.ret _ s = _
      rw [Payload.vals, accessFields_range]
  | .record ms, .record fs, hf =>
    have hb := intoInner_of (hh' _ rfl)
    have hm := hms _ hmem ms rfl
    have hl : (ms.map (·.1)).length = (fs.map (·.2)).length := by rw [← hf.1]; simp
    simp only [ReadArm.run, readArmOf]
    rw [structShape, show (ms.map (·.2)).map rc.leaf = ms.map (fun m => rc.leaf m.2) by simp, M.bind_of_ret hb]
    show Out.ret _ s = _
    rw [Payload.vals, record_vars hm hl, ← hf.1, zip_names, buildRecord_eq hn hmem hm hf.1]

/-- A read arm only builds values of its own variant. -/
theorem readArm_variant {P : Program} {a : ReadArm} {b : TBox} {s s' : State} {e : EVal}
    (h : a.run env rc P b s = .ret e s') : e.variant = a.v := by
  obtain ⟨c, v, body⟩ := a
  cases body with
  | unit => cases h; rfl
  | single ty =>
    obtain ⟨_, _, _, h⟩ := M.bind_ret_inv h
    cases h; rfl
  | ctuple tys x =>
    cases x with
    | noEval => cases h; rfl
    | access is =>
      obtain ⟨_, _, _, h⟩ := M.bind_ret_inv h
      cases h; rfl
  | rtuple tys x =>
    cases x with
    | noEval => cases h; rfl
    | access is =>
      obtain ⟨_, _, _, h⟩ := M.bind_ret_inv h
      cases h; rfl
  | record decl binders inits =>
    obtain ⟨_, _, _, h⟩ := M.bind_ret_inv h
    cases h
    simp only [buildRecord]
    split <;> rfl

theorem refArm_variant {P : Program} {a : RefArm} {b : TBox} {s s' : State} {p : EVal × List Event}
    (h : a.build env rc P b s = .ret p s') : p.1.variant = a.v := by
  obtain ⟨c, v, body⟩ := a
  cases body with
  | unit => cases h; rfl
  | single ty =>
    obtain ⟨_, _, _, h⟩ := M.bind_ret_inv h
    cases h; rfl
  | tuple tys x x' =>
    obtain ⟨_, _, _, h⟩ := M.bind_ret_inv h
    cases h; rfl
  | record decl binders inits =>
    obtain ⟨_, _, _, h⟩ := M.bind_ret_inv h
    cases h
    simp only [buildRecord]
    split <;> rfl

theorem containerIntoInner_stores (h8 : env.cfg.discrBits = 8) (hn : (decl.map (·.name)).Nodup)
    (hms : ∀ d ∈ decl, ∀ ms, d.fields = .record ms → (ms.map (·.1)).Nodup) {s : State} {b : TBox} {i : Nat} {e : EVal}
    (h : Stores env rc decl s b i e) : containerIntoInner env rc (programOf sn en hd decl) b s = .ret e s := by
  obtain ⟨d, hdi, _⟩ := h.isValue
  show firstRead env rc _ b (decl.map (readArmOf true)) s = _
  rw [firstRead_eq h8 hn, h.discr, hdi]
  exact readArm_run hn hms h hdi (fun h => by cases h)

theorem fromTaggedBox_stores (h8 : env.cfg.discrBits = 8) (hn : (decl.map (·.name)).Nodup)
    (hms : ∀ d ∈ decl, ∀ ms, d.fields = .record ms → (ms.map (·.1)).Nodup) {s : State} {b : TBox} {i : Nat} {e : EVal}
    (h : Stores env rc decl s b i e) {d : VariantDef} (hdi : decl[i]? = some d) (ha : TupleAgrees env rc d.fields) :
    fromTaggedBox env rc (programOf sn en hd decl) b s = .ret e s := by
  show firstRead env rc _ b (decl.map (readArmOf false)) s = _
  rw [firstRead_eq h8 hn, h.discr, hdi]
  exact readArm_run hn hms h hdi (fun _ => ha)

/-- Destructors run by observing a value of the variant: the enum's own `Drop`, for unit variants only. -/
def observeDrops (hasDrop : Bool) (d : VariantDef) : List Event :=
  match d.fields with
  | .unit => if hasDrop then [.dropEnum d.name] else []
  | _ => []

theorem refArm_build (hn : (decl.map (·.name)).Nodup) (hms : ∀ d ∈ decl, ∀ ms, d.fields = .record ms → (ms.map (·.1)).Nodup)
    {s : State} {b : TBox} {i : Nat} {e : EVal}
    (h : Stores env rc decl s b i e) {d : VariantDef} (hdi : decl[i]? = some d) :
    (refArmOf d).build env rc (programOf sn en hd decl) b s = .ret (e, observeDrops hd d) s := by
  obtain ⟨⟨d', hdi', hv, hf⟩, _, hh⟩ := h
  rw [hdi] at hdi'; cases hdi'
  have hmem := List.mem_of_getElem? hdi
  have hh' := hh d hdi
  obtain ⟨v, f⟩ := d
  obtain ⟨ev, p⟩ := e
  simp only at hv hf hh'
  subst hv
  match f, p, hf with
  | .unit, .unit, _ => rfl
  | .tuple [], .tuple [], _ => rfl
  | .tuple [t], .tuple [x], _ =>
    have hb := (hh' _ rfl).ptrRead
    simp only [RefArm.build, refArmOf]
    rw [M.bind_of_ret hb]
    rfl
  | .tuple [t], .tuple (_ :: _ :: _), hf => cases hf.2
  | .tuple (t :: t' :: ts), .tuple vs, hf =>
    have hb := (hh' _ rfl).ptrRead
    have hl := hasTypes_length hf
    have hx : tupleExpOf (t :: t' :: ts).length = .access (List.range vs.length) := by
      rw [tupleExpOf, if_neg (by simp), hl]
    simp only [RefArm.build, refArmOf, hx]
    have hb' : (do
        let vs_1 ← TB.ptrRead (structShape rc (t :: t' :: ts)) (b.asPtr env)
        pure (accessFields (List.range vs.length) vs_1) : M (List Bytes)) s = .ret vs s := by
      rw [M.bind_of_ret (show TB.ptrRead (structShape rc (t :: t' :: ts)) (b.asPtr env) s = _ from hb)]
      show Out.ret _ s = _
      rw [Payload.vals, accessFields_range]
    rw [M.bind_of_ret hb']
    show Out.ret _ s = _
    simp only [accessFields_range]
    rfl
  | .record ms, .record fs, hf =>
    have hb := (hh' _ rfl).ptrRead
    have hm := hms _ hmem ms rfl
    have hl : (ms.map (·.1)).length = (fs.map (·.2)).length := by rw [← hf.1]; simp
    simp only [RefArm.build, refArmOf]
    rw [structShape, show (ms.map (·.2)).map rc.leaf = ms.map (fun m => rc.leaf m.2) by simp, M.bind_of_ret hb]
    show Out.ret _ s = _
    rw [Payload.vals, record_vars hm hl, ← hf.1, zip_names, buildRecord_eq hn hmem hm hf.1]
    rfl

theorem presents_stores (h8 : env.cfg.discrBits = 8) (hn : (decl.map (·.name)).Nodup)
    (hms : ∀ d ∈ decl, ∀ ms, d.fields = .record ms → (ms.map (·.1)).Nodup) {s : State} {b : TBox} {i : Nat} {e : EVal}
    (h : Stores env rc decl s b i e) {d : VariantDef} (hdi : decl[i]? = some d) :
    Presents (taggable env rc (programOf sn en hd decl)) s b e (observeDrops hd d) := by
  intro β f
  show firstRef env rc _ b f (decl.map refArmOf) s = _
  rw [firstRef_eq h8 hn, h.discr, hdi]
  exact M.bind_of_ret (refArm_build hn hms h hdi)

end TB.Macro
