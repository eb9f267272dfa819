import Verif.Lemmas.GsCrate
import Verif.Lemmas.RsTop
import Verif.Props.Source

/-! # Running generated code: the program an invocation stands for (helper lemmas; no property theorems here) -/

set_option autoImplicit false

namespace TB.Spec

open TB TB.Macro TB.Mbe TB.Rust TB.Rust.Gen TB.Source TB.Props

variable {β : Type} {env : Env} {rc : Rustc} {sn en : String} {hd : Bool} {ts : List Tok} {decl : List VariantDef}
  {metas : List (List TT)} {svis evis : List TT} {user : User (Host β)} {cb : EVal → M β} {g : GCrate β}

theorem Declared.compiled (h : Declared env rc sn en hd ts decl) : Compiled rc env.cfg sn en hd ts decl (programOf sn en hd decl) :=
  ⟨h.tokens, compile_ok.2 ⟨decl, h.tokens, h.accepted, rfl⟩⟩

theorem Declared.ready (h : Declared env rc sn en hd ts decl) : Ready env rc en decl where
  u8 := h.accepted.u8
  enU8 := fun e => (h.accepted.prelude "u8" (by simp)).2.1 e.symm
  enCtr := h.accepted.enumOK.2.1
  names := h.accepted.names
  tuples := h.target.tuple_legal
  rcOK := h.rustc
  reserved := h.accepted.reserved
  arity := h.accepted.arity
  members := h.accepted.members

theorem Declared.name (h : Declared env rc sn en hd ts decl) {x : String} (hx : rc.isKeyword x = false) : x ∉ words := fun hm => by
  rw [h.keywords x hm] at hx
  cases hx

theorem Declared.isName (h : Declared env rc sn en hd ts decl) {x : String} (hx : rc.isKeyword x = false) : IsName x :=
  ⟨fun hm => h.name hx (by
    have : ∀ y ∈ kws, y ∈ words := by decide
    exact this x hm)⟩

theorem Declared.storable (h : Declared env rc sn en hd ts decl) : Storable rc hd decl where
  noSelf := fun d hd' e => h.name (h.accepted.idents.2.2 d hd').1 (by rw [e]; decide)
  sizes := h.sizes
  copy := h.accepted.copy

theorem Declared.crate (h : Declared env rc sn en hd ts decl) (cr : Crate (Host β)) (metas : List (List TT)) (svis evis : List TT) (cb : EVal → M β) :
    ∃ k₀, ∀ k ≥ k₀, genCrate k cr rc hd cb (Spec.generated metas svis sn evis en decl) = some ⟨cr, rc, hd, sn, en, decl, genFns sn en decl, cb⟩ := by
  haveI := h.isName h.accepted.idents.1
  haveI : DNames en decl := ⟨h.isName h.accepted.idents.2.1, fun d hd' => ⟨h.isName (h.accepted.idents.2.2 d hd').1, fun ms hf m hm =>
    h.isName ((h.accepted.idents.2.2 d hd').2 ms hf m hm)⟩⟩
  exact ⟨_, fun k hk => genCrate_eq cr rc hd cb metas svis evis sn en decl k hk⟩

theorem Declared.expands (h : Declared env rc sn en hd ts decl) (hm : ∀ m ∈ metas, IsMeta m) (hs : IsVis svis) (he : IsVis evis) :
    ExpandsTo rc (invocation metas svis sn evis en ts) (Spec.generated metas svis sn evis en decl) :=
  (C78 rc metas svis evis sn en ts _ hm hs he).2 ⟨decl, h.accepted.nonempty, h.tokens, h.accepted.arity, rfl⟩

theorem Declared.eq (h : Declared env rc sn en hd ts decl) (hm : ∀ m ∈ metas, IsMeta m) (hs : IsVis svis) (he : IsVis evis)
    (hg : IsProgram env rc user metas svis sn evis en hd ts cb g) : user.drop = hostDrop rc hd decl ∧ g = ⟨src env user, rc, hd, sn, en, decl, genFns sn en decl, cb⟩ := by
  obtain ⟨hdrop, out, cr, h1, h2, k, h3⟩ := hg
  have ho := C78_unique rc _ _ _ h1 (h.expands hm hs he)
  subst ho
  rw [sourceCrate_eq] at h2
  cases h2
  obtain ⟨k', h4⟩ := h.crate (src env user) metas svis evis cb
  have e := h3 (max k k') (Nat.le_max_left _ _)
  rw [h4 (max k k') (Nat.le_max_right _ _)] at e
  cases e
  exact ⟨hdrop, rfl⟩

end TB.Spec
