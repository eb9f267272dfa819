import Verif.Spec.UserRun
import Verif.Props.ContainerRun

/-! # Lemmas for C90 -/

set_option autoImplicit false

namespace TB.Rust.User

open TB TB.Macro TB.Mbe TB.Rust TB.Spec TB.Source

variable {env : Env} {rc : Rustc} {decl : List VariantDef} {readable storable : EVal → Bool} {A : Iface M TBox}

/-- `b` holds `e`. -/
structure Stored (rc : Rustc) (decl : List VariantDef) (readable : EVal → Bool) (A : Iface M TBox) (s : State) (b : TBox) (e : EVal) : Prop where
  value : IsEnumValue rc decl e
  inner : ∀ s', Extends s s' → A.inner b s' = .ret e s'
  read : readable e = true → ∀ s', Extends s s' → A.read b s' = .ret e s'
  lend : ∀ s', Extends s s' → ∀ f, A.lend b f s' = f e s'

theorem Stored.mono {s s' : State} {b : TBox} {e : EVal} (h : Stored rc decl readable A s b e) (hx : Extends s s') : Stored rc decl readable A s' b e :=
  ⟨h.value, fun _ h' => h.inner _ (hx.trans h'), fun hr _ h' => h.read hr _ (hx.trans h'), fun _ h' => h.lend _ (hx.trans h')⟩

def NullPanic {α : Type} (x : M α) (s : State) : Prop := ∃ k s', x s = .panic k s' ∧ NullBetween s s'

def Agrees (env : Env) {α α' : Type} (R : State → α → α' → Prop) (x : M α) (y : Except Fault α') (s : State) : Prop := match y with
  | .ok a' => (∃ a s', x s = .ret a s' ∧ HeapInv env s' ∧ Extends s s' ∧ R s' a a') ∨ NullPanic x s
  | .error .failed => (∃ s', x s = .panic (.user 0) s') ∨ NullPanic x s
  | .error .stuck => True

theorem null_mono {s s' s'' : State} (hx : Extends s s') (h : NullBetween s' s'') : NullBetween s s'' := by
  obtain ⟨sz, al, h⟩ := h
  refine ⟨sz, al, ?_⟩
  have hl : s.trace.length ≤ s'.trace.length := hx.trace.length_le
  have : s''.trace.drop s'.trace.length = (s''.trace.drop s.trace.length).drop (s'.trace.length - s.trace.length) := by
    rw [List.drop_drop]; congr 1; omega
  rw [this] at h
  exact List.mem_of_mem_drop h

theorem Agrees.bind {α α' β β' : Type} {R : State → α → α' → Prop} {Q : State → β → β' → Prop} {x : M α} {y : Except Fault α'} {f : α → M β} {g : α' → Except Fault β'}
    {s : State} (h : Agrees env R x y s) (hf : ∀ a a' s', HeapInv env s' → Extends s s' → R s' a a' → Agrees env Q (f a) (g a') s') :
    Agrees env Q (x >>= f) (y >>= g) s := by
  have hn : ∀ k s', x s = .panic k s' → (x >>= f) s = .panic k s' := by
    intro k s' e
    show M.bind x f s = _
    rw [M.bind, e]
  match y, h with
  | .error .stuck, _ => exact trivial
  | .error .failed, h =>
    rcases h with ⟨s', e⟩ | ⟨k, s', e, h⟩
    · exact .inl ⟨s', hn _ _ e⟩
    · exact .inr ⟨k, s', hn _ _ e, h⟩
  | .ok a', h =>
    rcases h with ⟨a, s', e, hi, hx, hr⟩ | ⟨k, s', e, h⟩
    · have e' : (x >>= f) s = f a s' := by
        show M.bind x f s = _
        rw [M.bind, e]
      have h2 := hf a a' s' hi hx hr
      show Agrees env Q (x >>= f) (g a') s
      generalize g a' = r at h2
      match r, h2 with
      | .error .stuck, _ => exact trivial
      | .error .failed, h2 =>
        rcases h2 with ⟨s'', e2⟩ | ⟨k, s'', e2, h⟩
        · exact .inl ⟨s'', e'.trans e2⟩
        · exact .inr ⟨k, s'', e'.trans e2, null_mono hx h⟩
      | .ok c, h2 =>
        rcases h2 with ⟨c, s'', e2, hi, hx2, hr⟩ | ⟨k, s'', e2, h⟩
        · exact .inl ⟨c, s'', e'.trans e2, hi, hx.trans hx2, hr⟩
        · exact .inr ⟨k, s'', e'.trans e2, null_mono hx h⟩
    · have e' := hn _ _ e
      show Agrees env Q (x >>= f) (g a') s
      match g a' with
      | .error .stuck => exact trivial
      | .error .failed => exact .inr ⟨k, s', e', h⟩
      | .ok c => exact .inr ⟨k, s', e', h⟩

theorem Agrees.congr {α α' : Type} {R : State → α → α' → Prop} {x x' : M α} {y : Except Fault α'} {s : State} (h : Agrees env R x y s) (e : x' s = x s) :
    Agrees env R x' y s := by
  match y, h with
  | .error .stuck, _ => exact trivial
  | .error .failed, h => simpa only [Agrees, NullPanic, e] using h
  | .ok a, h => simpa only [Agrees, NullPanic, e] using h

theorem Agrees.pure {α α' : Type} {R : State → α → α' → Prop} {a : α} {a' : α'} {s : State} (hi : HeapInv env s) (h : R s a a') :
    Agrees env R (Pure.pure a : M α) (Pure.pure a' : Except Fault α') s := .inl ⟨a, s, rfl, hi, Extends.refl _, h⟩

/-- What is known of the functions of the generated code. -/
structure Good (env : Env) (rc : Rustc) (decl : List VariantDef) (readable storable : EVal → Bool) (A : Iface M TBox) : Prop where
  into : ∀ e, IsEnumValue rc decl e → storable e = true → ∀ s, HeapInv env s → Agrees env (Stored rc decl readable A) (A.into e) (.ok e) s
  wrap : ∀ e, IsEnumValue rc decl e → storable e = true → ∀ s, HeapInv env s → Agrees env (Stored rc decl readable A) (A.wrap e) (.ok e) s
  wrapFields : ∀ v tys vs, ⟨v, .tuple tys⟩ ∈ decl → HasTypes rc tys vs → tys ≠ [] → storable ⟨v, .tuple vs⟩ = true → ∀ s, HeapInv env s →
    Agrees env (Stored rc decl readable A) (A.wrapFields v tys vs) (.ok ⟨v, .tuple vs⟩) s
  fail : ∀ α s, A.fail α s = .panic (.user 0) s

section
variable (g : Good env rc decl readable storable A) {L : Lits} (hL : LitsOK rc L) {sn en : String}

abbrev RV (rc : Rustc) (decl : List VariantDef) (readable : EVal → Bool) (A : Iface M TBox) (s : State) : UV TBox → UV EVal → Prop
  | .prim p, .prim q => p = q
  | .tup ps, .tup qs => ps = qs
  | .item e, .item e' => e = e' ∧ IsEnumValue rc decl e
  | .box b, .box e => Stored rc decl readable A s b e
  | .cont b, .cont e => Stored rc decl readable A s b e
  | .unit, .unit => True
  | _, _ => False

def RVs (rc : Rustc) (decl : List VariantDef) (readable : EVal → Bool) (A : Iface M TBox) (s : State) : List (UV TBox) → List (UV EVal) → Prop
  | [], [] => True
  | v :: vs, w :: ws => RV rc decl readable A s v w ∧ RVs rc decl readable A s vs ws
  | _, _ => False

def RL (rc : Rustc) (decl : List VariantDef) (readable : EVal → Bool) (A : Iface M TBox) (s : State) (l : List (String × UV TBox)) (l' : List (String × UV EVal)) : Prop :=
  l.map (·.1) = l'.map (·.1) ∧ RVs rc decl readable A s (l.map (·.2)) (l'.map (·.2))

theorem RV.mono {s s' : State} (hx : Extends s s') : ∀ {v : UV TBox} {w : UV EVal}, RV rc decl readable A s v w → RV rc decl readable A s' v w
  | .prim _, .prim _, h => h
  | .tup _, .tup _, h => h
  | .item _, .item _, h => h
  | .box _, .box _, h => Stored.mono h hx
  | .cont _, .cont _, h => Stored.mono h hx
  | .unit, .unit, h => h

theorem RVs.mono {s s' : State} (hx : Extends s s') : ∀ {vs : List (UV TBox)} {ws : List (UV EVal)}, RVs rc decl readable A s vs ws → RVs rc decl readable A s' vs ws
  | [], [], h => h
  | _ :: _, _ :: _, h => ⟨RV.mono hx h.1, RVs.mono hx h.2⟩

theorem RL.mono {s s' : State} (hx : Extends s s') {l : List (String × UV TBox)} {l' : List (String × UV EVal)} (h : RL rc decl readable A s l l') :
    RL rc decl readable A s' l l' := ⟨h.1, h.2.mono hx⟩

theorem RL.cons {s : State} {l : List (String × UV TBox)} {l' : List (String × UV EVal)} (h : RL rc decl readable A s l l') (x : String) {v : UV TBox} {w : UV EVal}
    (hv : RV rc decl readable A s v w) : RL rc decl readable A s ((x, v) :: l) ((x, w) :: l') :=
  ⟨by simp only [List.map_cons, h.1], hv, h.2⟩

theorem RL.lookup {s : State} (x : String) : ∀ {l : List (String × UV TBox)} {l' : List (String × UV EVal)}, RL rc decl readable A s l l' →
    (∀ w, TB.Rust.lookup x l' = some w → ∃ v, TB.Rust.lookup x l = some v ∧ RV rc decl readable A s v w)
  | [], [], _ => by intro w h; cases h
  | (y, v) :: l, (z, w) :: l', h => by
    obtain ⟨h1, h2, h3⟩ := h
    simp only [List.map_cons, List.cons.injEq] at h1
    obtain ⟨rfl, h1⟩ := h1
    intro w' hw
    rw [TB.Rust.lookup] at hw ⊢
    split
    · rename_i hy
      rw [if_pos hy] at hw
      cases hw
      exact ⟨v, rfl, h2⟩
    · rename_i hy
      rw [if_neg hy] at hw
      exact RL.lookup x ⟨h1, h3⟩ w' hw
  | [], _ :: _, h => absurd h.1 (by simp)
  | _ :: _, [], h => absurd h.1 (by simp)

theorem RVs.prims {s : State} : ∀ {vs : List (UV TBox)} {ws : List (UV EVal)}, RVs rc decl readable A s vs ws → TB.Rust.prims vs = TB.Rust.prims ws
  | [], [], _ => rfl
  | .prim p :: vs, .prim q :: ws, h => by
    obtain ⟨h1, h2⟩ := h
    cases h1
    rw [TB.Rust.prims, TB.Rust.prims, RVs.prims h2]
  | .tup _ :: _, .tup _ :: _, _ => rfl
  | .item _ :: _, .item _ :: _, _ => rfl
  | .box _ :: _, .box _ :: _, _ => rfl
  | .cont _ :: _, .cont _ :: _, _ => rfl
  | .unit :: _, .unit :: _, _ => rfl

/-- Something both get from the same pure computation. -/
theorem orStuck_agrees {α : Type} (o : Option α) {s : State} (hi : HeapInv env s) {R : State → α → α → Prop} (h : ∀ a, o = some a → R s a a) :
    Agrees env R (orStuck A o) (orStuck (plainIface readable storable) o) s := by
  cases o with
  | none => exact trivial
  | some a => exact Agrees.pure hi (h a rfl)

theorem encAll_has (hL : LitsOK rc L) : ∀ {tys : List Ty} {ps : List Prim} {bs : List Bytes}, encAll L tys ps = some bs → HasTypes rc tys bs ∧ tys.length = ps.length
  | [], [], bs, h => by cases h; exact ⟨trivial, rfl⟩
  | t :: ts, p :: ps, bs, h => by
    rw [encAll] at h
    split at h
    · rename_i b bs' e1 e2
      cases h
      obtain ⟨h1, h2⟩ := encAll_has hL e2
      exact ⟨⟨hL _ _ _ e1, h1⟩, by simp [h2]⟩
    · cases h
  | [], _ :: _, _, h => by cases h
  | _ :: _, [], _, h => by cases h

theorem lookupDef_some {v : String} {f : Fields} (h : lookupDef decl v = some f) : ∃ i : Nat, decl[i]? = some (⟨v, f⟩ : VariantDef) := by
  rw [lookupDef] at h
  cases hf : decl.find? (·.name == v) with
  | none => rw [hf] at h; cases h
  | some d =>
    rw [hf] at h
    cases h
    have h1 := List.find?_some hf
    have h2 := List.mem_of_find?_eq_some hf
    obtain ⟨i, hi⟩ := List.mem_iff_getElem?.1 h2
    have : d.name = v := by simpa using h1
    subst this
    exact ⟨i, hi⟩

theorem tupleItem_value (hL : LitsOK rc L) {v : String} {ps : List Prim} {e : EVal} (h : tupleItem L decl v ps = some e) : IsEnumValue rc decl e := by
  rw [tupleItem] at h
  split at h
  · rename_i tys hd
    obtain ⟨i, hi⟩ := lookupDef_some hd
    cases hb : encAll L tys ps with
    | none => rw [hb] at h; cases h
    | some bs =>
      rw [hb] at h
      cases h
      exact ⟨i, _, hi, rfl, (encAll_has hL hb).1⟩
  · cases h

theorem unitItem_value {v : String} {e : EVal} (h : unitItem decl v = some e) : IsEnumValue rc decl e := by
  rw [unitItem] at h
  split at h
  · rename_i hd
    obtain ⟨i, hi⟩ := lookupDef_some hd
    cases h
    exact ⟨i, _, hi, rfl, trivial⟩
  · cases h

theorem HasTypes.length : ∀ {tys : List Ty} {vs : List Bytes}, HasTypes rc tys vs → vs.length = tys.length
  | [], [], _ => rfl
  | _ :: _, _ :: _, h => by simp [HasTypes.length h.2]

theorem recordItem_value (hL : LitsOK rc L) {v : String} {fs : List (String × Prim)} {e : EVal} (h : recordItem L decl v fs = some e) : IsEnumValue rc decl e := by
  rw [recordItem] at h
  split at h
  · rename_i ms hd
    obtain ⟨i, hi⟩ := lookupDef_some hd
    split at h
    · rename_i ps hp
      cases hb : encAll L (ms.map (·.2)) ps with
      | none => rw [hb] at h; cases h
      | some bs =>
        rw [hb] at h
        cases h
        have h1 := (encAll_has hL hb).1
        have h2 := HasTypes.length h1
        simp only [List.length_map] at h2
        refine ⟨i, _, hi, rfl, ?_, ?_⟩
        · rw [List.map_fst_zip (by simp [h2])]
        · rw [List.map_snd_zip (by simp [h2])]
          exact h1
    · cases h
  · cases h

theorem findFrom_some (hL : LitsOK rc L) {ps : List Prim} (hp : ps ≠ []) {r : String × List Ty × List Bytes} : ∀ {ds : List VariantDef}, findFrom L ds ps = some r →
    ⟨r.1, .tuple r.2.1⟩ ∈ ds ∧ HasTypes rc r.2.1 r.2.2 ∧ r.2.1 ≠ []
  | [], h => by cases h
  | ⟨v, .tuple tys⟩ :: ds, h => by
    rw [findFrom] at h
    split at h
    · rename_i bs hb
      cases h
      obtain ⟨h1, h2⟩ := encAll_has hL hb
      refine ⟨List.mem_cons_self .., h1, ?_⟩
      intro h0
      cases ps with
      | nil => exact hp rfl
      | cons p ps => simp_all
    · obtain ⟨h1, h2⟩ := findFrom_some hL hp h
      exact ⟨List.mem_cons_of_mem _ h1, h2⟩
  | ⟨v, .unit⟩ :: ds, h => by
    obtain ⟨h1, h2⟩ := findFrom_some hL hp (ds := ds) h
    exact ⟨List.mem_cons_of_mem _ h1, h2⟩
  | ⟨v, .record ms⟩ :: ds, h => by
    obtain ⟨h1, h2⟩ := findFrom_some hL hp (ds := ds) h
    exact ⟨List.mem_cons_of_mem _ h1, h2⟩

/-! ## The parts of the interpreter -/

local notation "𝓟" => plainIface readable storable
local notation "𝓡" => RV rc decl readable A

theorem eqUV_agrees {s : State} (hi : HeapInv env s) {v v' : UV TBox} {w w' : UV EVal} (h : 𝓡 s v w) (h' : 𝓡 s v' w') :
    Agrees env (fun _ b b' => b = b') (eqUV L decl A v v') (eqUV L decl 𝓟 w w') s := by
  cases v <;> cases w <;> first | exact h.elim | skip
  case item.item e e1 =>
    cases v' <;> cases w' <;> first | exact h'.elim | skip
    case item.item e' e1' =>
      obtain ⟨rfl, _⟩ := h
      obtain ⟨rfl, _⟩ := h'
      exact Agrees.pure hi rfl
    all_goals exact trivial
  all_goals exact trivial

theorem cmpUV_agrees (o : Ordering) {s : State} (hi : HeapInv env s) {v v' : UV TBox} {w w' : UV EVal} (h : 𝓡 s v w) (h' : 𝓡 s v' w') :
    Agrees env (fun _ b b' => b = b') (cmpUV L decl A o v v') (cmpUV L decl 𝓟 o w w') s := by
  cases v <;> cases w <;> first | exact h.elim | skip
  case item.item e e1 =>
    cases v' <;> cases w' <;> first | exact h'.elim | skip
    case item.item e' e1' =>
      obtain ⟨rfl, _⟩ := h
      obtain ⟨rfl, _⟩ := h'
      exact Agrees.pure hi rfl
    all_goals exact trivial
  all_goals exact trivial

include g

theorem methodUV_agrees (f : String) {s : State} (hi : HeapInv env s) {v : UV TBox} {w : UV EVal} (h : 𝓡 s v w) :
    Agrees env 𝓡 (methodUV A f v) (methodUV 𝓟 f w) s := by
  cases v <;> cases w <;> first | exact h.elim | skip
  case item.item e e1 =>
    obtain ⟨rfl, hv⟩ := h
    rw [methodUV, methodUV]
    split
    · show Agrees env 𝓡 _ ((if storable e then Except.ok e else .error .stuck) >>= _) s
      cases hst : storable e with
      | false => exact trivial
      | true => exact (g.into e hv hst s hi).bind fun b e' s' hi' _ hs => Agrees.pure hi' hs
    · exact trivial
  case cont.cont b e =>
    rw [methodUV, methodUV]
    split
    · refine Agrees.bind (R := fun _ x y => x = y ∧ IsEnumValue rc decl x) (.inl ⟨e, s, h.inner s (Extends.refl _), hi, Extends.refl _, rfl, h.value⟩) ?_
      intro a a' s' hi' _ hs
      exact Agrees.pure hi' hs
    · exact trivial
  all_goals exact trivial

include hL

theorem wrapFields_agrees {ps : List Prim} (hp : ps ≠ []) {s : State} (hi : HeapInv env s) :
    Agrees env 𝓡 (do
      let r ← orStuck A (findFrom L decl ps)
      let b ← A.wrapFields r.1 r.2.1 r.2.2
      pure (.cont b)) (do
      let r ← orStuck 𝓟 (findFrom L decl ps)
      let b ← (𝓟).wrapFields r.1 r.2.1 r.2.2
      pure (.cont b)) s := by
  refine Agrees.bind (orStuck_agrees _ hi (R := fun _ a b => a = b ∧ findFrom L decl ps = some a) fun a h => ⟨rfl, h⟩) ?_
  rintro r _ s' hi' hx ⟨rfl, hr⟩
  obtain ⟨h1, h2, h3⟩ := findFrom_some hL hp hr
  show Agrees env 𝓡 _ ((if storable ⟨r.1, .tuple r.2.2⟩ then Except.ok (⟨r.1, .tuple r.2.2⟩ : EVal) else .error .stuck) >>= _) s'
  cases hst : storable ⟨r.1, .tuple r.2.2⟩ with
  | false => exact trivial
  | true => exact (g.wrapFields _ _ _ h1 h2 h3 hst s' hi').bind fun b e s'' hi'' _ hs => Agrees.pure hi'' hs

theorem callUV_agrees (ty f : String) {s : State} (hi : HeapInv env s) {vs : List (UV TBox)} {ws : List (UV EVal)} (h : RVs rc decl readable A s vs ws) :
    Agrees env 𝓡 (callUV L decl A sn en ty f vs) (callUV L decl 𝓟 sn en ty f ws) s := by
  unfold callUV
  split
  · split
    · match vs, ws, h with
      | [], [], _ => exact trivial
      | _ :: _ :: _, w :: _ :: _, _ =>
        match w with
        | .tup [] => exact trivial
        | .tup [_] => exact trivial
        | .tup (_ :: _ :: _) => exact trivial
        | .prim _ => exact trivial
        | .item _ => exact trivial
        | .box _ => exact trivial
        | .cont _ => exact trivial
        | .unit => exact trivial
      | [.item e], [.item e'], h =>
        obtain ⟨⟨rfl, hv⟩, _⟩ := h
        show Agrees env 𝓡 _ ((if storable e then Except.ok e else .error .stuck) >>= _) s
        cases hst : storable e with
        | false => exact trivial
        | true => exact (g.wrap e hv hst s hi).bind fun b e' s' hi' _ hs => Agrees.pure hi' hs
      | [.prim p], [.prim q], h =>
        obtain ⟨rfl, _⟩ := h
        exact wrapFields_agrees g hL (by simp) hi
      | [.tup ps], [.tup qs], h =>
        obtain ⟨rfl, _⟩ := h
        match ps with
        | [] => exact trivial
        | [_] => exact trivial
        | p :: q :: ps => exact wrapFields_agrees g hL (by simp) hi
      | [.box _], [.box _], _ => exact trivial
      | [.cont _], [.cont _], _ => exact trivial
      | [.unit], [.unit], _ => exact trivial
    · exact trivial
  · split
    · split
      · match vs, ws, h with
        | [], [], _ => exact trivial
        | _ :: _ :: _, w :: _ :: _, _ =>
          match w with
          | .tup [] => exact trivial
          | .tup [_] => exact trivial
          | .tup (_ :: _ :: _) => exact trivial
          | .prim _ => exact trivial
          | .item _ => exact trivial
          | .box _ => exact trivial
          | .cont _ => exact trivial
          | .unit => exact trivial
        | [.item e], [.item e'], h => exact trivial
        | [.prim p], [.prim q], h => exact trivial
        | [.tup ps], [.tup qs], h => exact trivial
        | [.box b], [.box e], h =>
          show Agrees env 𝓡 _ ((if readable e then Except.ok e else Except.error Fault.stuck) >>= fun e => (pure (UV.item e) : Except Fault (UV EVal))) s
          cases hr : readable e with
          | false => exact trivial
          | true =>
            refine Agrees.bind (R := fun _ x y => x = y ∧ IsEnumValue rc decl x) (y := .ok e) (.inl ⟨e, s, h.1.read hr s (Extends.refl _), hi, Extends.refl _, rfl, h.1.value⟩) ?_
            intro a a' s' hi' _ hs
            exact Agrees.pure hi' hs
        | [.cont _], [.cont _], _ => exact trivial
        | [.unit], [.unit], _ => exact trivial
      · rw [h.prims]
        refine Agrees.bind (orStuck_agrees _ hi (R := fun _ a b => a = b) fun a _ => rfl) ?_
        rintro ps _ s' hi' hx rfl
        refine Agrees.bind (orStuck_agrees _ hi' (R := fun _ a b => a = b ∧ IsEnumValue rc decl a) fun a h => ⟨rfl, tupleItem_value hL h⟩) ?_
        intro e e' s'' hi'' _ he
        exact Agrees.pure hi'' he
    · split
      · match vs, ws, h with
        | [], [], _ => exact Agrees.pure hi rfl
        | _ :: _, _ :: _, _ => exact trivial
      · split
        · match vs, ws, h with
          | [], [], _ => exact trivial
          | _ :: _ :: _, .prim p :: _ :: _, _ => cases p <;> exact trivial
          | _ :: _ :: _, .tup p :: _ :: _, _ => exact trivial
          | _ :: _ :: _, .item p :: _ :: _, _ => exact trivial
          | _ :: _ :: _, .box p :: _ :: _, _ => exact trivial
          | _ :: _ :: _, .cont p :: _ :: _, _ => exact trivial
          | _ :: _ :: _, .unit :: _ :: _, _ => exact trivial
          | [.prim p], [.prim q], h =>
            obtain ⟨rfl, _⟩ := h
            cases p with
            | text t => exact Agrees.pure hi rfl
            | _ => exact trivial
          | [.item e], [.item e'], h => exact trivial
          | [.tup ps], [.tup qs], h => exact trivial
          | [.box _], [.box _], _ => exact trivial
          | [.cont _], [.cont _], _ => exact trivial
          | [.unit], [.unit], _ => exact trivial
        · exact trivial

omit g in
theorem RVs.length {s : State} : ∀ {vs : List (UV TBox)} {ws : List (UV EVal)}, RVs rc decl readable A s vs ws → vs.length = ws.length
  | [], [], _ => rfl
  | _ :: _, _ :: _, h => by simp [RVs.length h.2]

omit g hL in
theorem RVs.zip {s : State} : ∀ (xs : List String) {vs : List (UV TBox)} {ws : List (UV EVal)}, RVs rc decl readable A s vs ws →
    RVs rc decl readable A s ((xs.zip vs).map (·.2)) ((xs.zip ws).map (·.2)) ∧ (xs.zip vs).map (·.1) = (xs.zip ws).map (·.1)
  | [], _, _, _ => by simp [RVs]
  | _ :: _, [], [], _ => by simp [RVs]
  | x :: xs, v :: vs, w :: ws, h => by
    obtain ⟨h1, h2⟩ := RVs.zip xs h.2
    exact ⟨⟨h.1, h1⟩, by simp only [List.zip_cons_cons, List.map_cons, h2]⟩

omit g in
theorem structUV_agrees (p : RPath) {s : State} (hi : HeapInv env s) (xs : List String) {vs : List (UV TBox)} {ws : List (UV EVal)} (h : RVs rc decl readable A s vs ws) :
    Agrees env 𝓡 (structUV L decl A sn en p (xs.zip vs)) (structUV L decl 𝓟 sn en p (xs.zip ws)) s := by
  have hrec : ∀ x v, Agrees env 𝓡 (if x = en then do
      let ps ← orStuck A (prims ((xs.zip vs).map (·.2)))
      let e ← orStuck A (recordItem L decl v (((xs.zip vs).map (·.1)).zip ps))
      pure (.item e)
    else A.stuck _) (if x = en then do
      let ps ← orStuck 𝓟 (prims ((xs.zip ws).map (·.2)))
      let e ← orStuck 𝓟 (recordItem L decl v (((xs.zip ws).map (·.1)).zip ps))
      pure (.item e)
    else (𝓟).stuck _) s := by
    intro x v
    split
    · obtain ⟨h2, h3⟩ := RVs.zip xs h
      rw [h2.prims, h3]
      refine Agrees.bind (orStuck_agrees _ hi (R := fun _ a b => a = b) fun a _ => rfl) ?_
      rintro ps _ s' hi' hx rfl
      refine Agrees.bind (orStuck_agrees _ hi' (R := fun _ a b => a = b ∧ IsEnumValue rc decl a) fun a h => ⟨rfl, recordItem_value hL h⟩) ?_
      intro e e' s'' hi'' _ he
      exact Agrees.pure hi'' he
    · exact trivial
  match p with
  | [] => exact trivial
  | (_, _ :: _) :: _ => exact trivial
  | (_, []) :: (_, _ :: _) :: _ => exact trivial
  | (_, []) :: (_, []) :: _ :: _ => exact trivial
  | [(x, []), (v, [])] => exact hrec x v
  | [(x, [])] =>
    unfold structUV
    dsimp only
    split
    · match xs, vs, ws, h with
      | [], _, _, _ => exact trivial
      | _ :: _, [], [], _ => exact trivial
      | f :: xs, v :: vs, w :: ws, h =>
        match xs, vs, ws, h with
        | [], vs, ws, h =>
          match v, w, h with
          | .box b, .box e, h =>
            dsimp only [List.zip_cons_cons, List.zip_nil_left]
            split
            · exact Agrees.pure hi h.1
            · exact trivial
          | .prim _, .prim _, _ => exact trivial
          | .tup _, .tup _, _ => exact trivial
          | .item _, .item _, _ => exact trivial
          | .cont _, .cont _, _ => exact trivial
          | .unit, .unit, _ => exact trivial
        | _ :: _, [], [], h =>
          match v, w, h with
          | .box b, .box e, h =>
            simp only [List.zip_cons_cons, List.zip_nil_right]
            split
            · exact Agrees.pure hi h.1
            · exact trivial
          | .prim _, .prim _, _ => exact trivial
          | .tup _, .tup _, _ => exact trivial
          | .item _, .item _, _ => exact trivial
          | .cont _, .cont _, _ => exact trivial
          | .unit, .unit, _ => exact trivial
        | y :: xs, v2 :: vs, w2 :: ws, h =>
          cases w <;> exact trivial
    · obtain ⟨h2, h3⟩ := RVs.zip xs h
      rw [h2.prims, h3]
      refine Agrees.bind (orStuck_agrees _ hi (R := fun _ a b => a = b) fun a _ => rfl) ?_
      rintro ps _ s' hi' hx rfl
      exact Agrees.pure hi' rfl

/-! ## The interpreter -/

theorem sim (n : Nat) :
    (∀ e s l l', HeapInv env s → RL rc decl readable A s l l' → Agrees env 𝓡 (uev L decl A sn en n l e) (uev L decl 𝓟 sn en n l' e) s) ∧
    (∀ es s l l', HeapInv env s → RL rc decl readable A s l l' →
      Agrees env (RVs rc decl readable A) (uevs L decl A sn en n l es) (uevs L decl 𝓟 sn en n l' es) s) ∧
    (∀ ss s l l', HeapInv env s → RL rc decl readable A s l l' → Agrees env 𝓡 (ustmts L decl A sn en n l ss) (ustmts L decl 𝓟 sn en n l' ss) s) := by
  induction n with
  | zero => exact ⟨fun _ _ _ _ _ _ => trivial, fun _ _ _ _ _ _ => trivial, fun _ _ _ _ _ _ => trivial⟩
  | succ n ih =>
    obtain ⟨ihe, ihs, iht⟩ := ih
    refine ⟨?_, ?_, ?_⟩
    · intro e s l l' hi hl
      have hcall : ∀ ty f args, Agrees env 𝓡 (uevs L decl A sn en n l args >>= callUV L decl A sn en ty f) (uevs L decl 𝓟 sn en n l' args >>= callUV L decl 𝓟 sn en ty f) s :=
        fun ty f args => (ihs args s l l' hi hl).bind fun vs ws s' hi' _ h => callUV_agrees g hL ty f hi' h
      have heq : ∀ f a b, Agrees env 𝓡 (do
            let x ← uev L decl A sn en n l a
            let y ← uev L decl A sn en n l b
            let r ← eqUV L decl A x y
            if f = "assert_eq" then if r then pure .unit else A.fail _
            else if f = "assert_ne" then if r then A.fail _ else pure .unit
            else A.stuck _) (do
            let x ← uev L decl 𝓟 sn en n l' a
            let y ← uev L decl 𝓟 sn en n l' b
            let r ← eqUV L decl 𝓟 x y
            if f = "assert_eq" then if r then pure .unit else (𝓟).fail _
            else if f = "assert_ne" then if r then (𝓟).fail _ else pure .unit
            else (𝓟).stuck _) s := by
        intro f a b
        refine (ihe a s l l' hi hl).bind fun v w s1 hi1 hx1 h1 => (ihe b s1 l l' hi1 (hl.mono hx1)).bind fun v' w' s2 hi2 hx2 h2 =>
          (eqUV_agrees hi2 (h1.mono hx2) h2).bind ?_
        rintro r _ s3 hi3 _ rfl
        split
        · split
          · exact Agrees.pure hi3 trivial
          · exact .inl ⟨s3, g.fail _ _⟩
        · split
          · split
            · exact .inl ⟨s3, g.fail _ _⟩
            · exact Agrees.pure hi3 trivial
          · exact trivial
      unfold uev
      split <;> try exact trivial
      · rename_i t
        rw [litUV, litUV]
        split <;> exact Agrees.pure hi rfl
      · exact Agrees.pure hi rfl
      · rename_i x
        rw [nameUV, nameUV]
        split
        · exact Agrees.pure hi rfl
        · split
          · exact Agrees.pure hi rfl
          · cases hw : lookup x l' with
            | none => exact trivial
            | some w =>
              obtain ⟨v, h1, h2⟩ := RL.lookup x hl w hw
              rw [h1]
              exact Agrees.pure hi h2
      · split
        · refine Agrees.bind (orStuck_agrees _ hi (R := fun _ a b => a = b ∧ IsEnumValue rc decl a) fun a h => ⟨rfl, unitItem_value h⟩) ?_
          intro e e' s'' hi'' _ he
          exact Agrees.pure hi'' he
        · exact trivial
      · exact ihe _ s l l' hi hl
      · refine (ihs _ s l l' hi hl).bind fun vs ws s1 hi1 _ h => ?_
        rw [h.prims]
        refine Agrees.bind (orStuck_agrees _ hi1 (R := fun _ a b => a = b) fun a _ => rfl) ?_
        rintro ps _ s' hi' hx rfl
        exact Agrees.pure hi' rfl
      · split
        · split
          · refine (ihe _ s l l' hi hl).bind fun v w s1 hi1 hx1 h => ?_
            cases v <;> cases w <;> first | exact h.elim | skip
            case box.box b e =>
              refine Agrees.bind (R := fun _ _ _ => True) ?_ fun _ _ s2 hi2 _ _ => Agrees.pure hi2 trivial
              have h0 := h.lend s1 (Extends.refl _)
              rename_i x body _
              have h2 : Agrees env (fun _ _ _ => True) (do
                  let _ ← uev L decl A sn en n ((x, .item e) :: l) body
                  pure ()) (do
                  let _ ← uev L decl 𝓟 sn en n ((x, .item e) :: l') body
                  pure ()) s1 :=
                (ihe body s1 _ _ hi1 ((hl.mono hx1).cons x (show 𝓡 s1 (.item e) (.item e) from ⟨rfl, h.value⟩))).bind fun _ _ s2 hi2 _ _ => Agrees.pure hi2 trivial
              exact h2.congr (h0 _)
            all_goals exact trivial
          · exact trivial
        · exact hcall _ _ _
      · exact (ihe _ s l l' hi hl).bind fun v w s1 hi1 _ h => methodUV_agrees g _ hi1 h
      · exact (ihs _ s l l' hi hl).bind fun vs ws s1 hi1 _ h => structUV_agrees hL _ hi1 _ h
      · refine (ihs _ s l l' hi hl).bind fun vs ws s1 hi1 _ h => ?_
        rw [h.prims]
        refine Agrees.bind (orStuck_agrees _ hi1 (R := fun _ a b => a = b) fun a _ => rfl) ?_
        rintro ps _ s' hi' hx rfl
        exact Agrees.pure hi' rfl
      · split
        · refine (ihs _ s l l' hi hl).bind fun vs ws s1 hi1 _ h => ?_
          rw [h.prims]
          refine Agrees.bind (orStuck_agrees _ hi1 (R := fun _ a b => a = b) fun a _ => rfl) ?_
          rintro ps _ s' hi' hx rfl
          exact Agrees.pure hi' rfl
        · split
          · exact heq _ _ _
          · refine (ihe _ s l l' hi hl).bind fun v w s1 hi1 hx1 h1 => (ihe _ s1 l l' hi1 (hl.mono hx1)).bind fun v' w' s2 hi2 hx2 h2 =>
              Agrees.bind (R := fun _ a b => a = b) ?_ ?_
            · unfold binUV
              split
              · exact cmpUV_agrees _ hi2 (h1.mono hx2) h2
              · exact cmpUV_agrees _ hi2 (h1.mono hx2) h2
              · exact trivial
            · rintro r _ s3 hi3 _ rfl
              split
              · split
                · exact Agrees.pure hi3 trivial
                · exact .inl ⟨s3, g.fail _ _⟩
              · exact trivial
          · exact trivial
      · exact iht _ s l l' hi hl
    · intro es s l l' hi hl
      cases es with
      | nil => exact Agrees.pure hi trivial
      | cons e es =>
        exact (ihe e s l l' hi hl).bind fun v w s1 hi1 hx1 h => (ihs es s1 l l' hi1 (hl.mono hx1)).bind fun vs ws s2 hi2 hx2 h2 => Agrees.pure hi2 ⟨h.mono hx2, h2⟩
    · intro ss s l l' hi hl
      cases ss with
      | nil => exact Agrees.pure hi trivial
      | cons st ss =>
        unfold ustmts
        split <;> try exact trivial
        · exact (ihe _ s l l' hi hl).bind fun v w s1 hi1 hx1 h => iht ss s1 _ _ hi1 ((hl.mono hx1).cons _ h)
        · exact (ihe _ s l l' hi hl).bind fun v w s1 hi1 hx1 h => iht ss s1 _ _ hi1 (hl.mono hx1)
        · refine (ihe _ s l l' hi hl).bind fun v w s1 hi1 hx1 h => ?_
          cases ss with
          | nil => exact Agrees.pure hi1 h
          | cons st ss => exact iht _ s1 _ _ hi1 (hl.mono hx1)

end

end TB.Rust.User
