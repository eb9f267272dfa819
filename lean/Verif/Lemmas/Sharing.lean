import Verif.Spec.Sharing
import Verif.Lemmas.Prog

/-!
# Lemmas: the crate's code modifies only what it allocates
-/

set_option autoImplicit false

namespace TB

open Conf (Tame)

variable {env : Env} {inRange : Bool} {F : List Block}

/-- From any well-formed heap in which the blocks `F` are alive, the program spares them. -/
def Calm (env : Env) (inRange : Bool) (F : List Block) {α : Type} (p : Prog α) : Prop :=
  ∀ s, HeapInv env s → (∀ b ∈ F, b ∈ s.blocks) → Tame env inRange F p s

namespace Calm

variable {α β : Type}

theorem ret (a : α) : Calm env inRange F (.ret a) := fun _ _ _ => trivial
theorem panic (k : PanicKind) : Calm env inRange F (.panic k : Prog α) := fun _ _ _ => trivial
theorem ub (k : UBKind) : Calm env inRange F (.ub k : Prog α) := fun _ _ _ => trivial

theorem bind {p : Prog α} {f : α → Prog β} (hp : Calm env inRange F p) (hf : ∀ a, Calm env inRange F (f a)) :
    Calm env inRange F (p.bind f) := fun s hi hF => Tame.bind (fun a => hf a) p s hi hF (hp s hi hF)

theorem cleanup {p : Prog α} (es : List Event) (hp : Calm env inRange F p) : Calm env inRange F (p.cleanup es) :=
  fun s hi hF => Tame.cleanup es p s (hp s hi hF)

theorem observe {p : Prog α} (acc : List Event) (hp : Calm env inRange F p) : Calm env inRange F (p.observe acc) :=
  fun s hi hF => Tame.observe p acc s (hp s hi hF)

theorem read {sh : Shape} {a : Nat} : Calm env inRange F (.read sh a .ret) := fun _ _ _ _ _ _ _ => trivial

theorem user {p : Prog α} (h : LeavesAlone env inRange p) : Calm env inRange F p := by
  intro s hi hF
  refine Tame.of_spares p s fun p' s' hs a n ha b hb => h s hi p' s' hs a n ha b (hF b hb)

theorem new {sh : Shape} {v : Val} {d : env.cfg.Discr} : Calm env inRange F (TBox.newP env sh v d) := by
  intro s hi hF
  unfold TBox.newP
  split
  · trivial
  · intro _ a ha
    show Tame env inRange F (if BitVec.ofNat 64 a = 0#64 then _ else _) _
    split
    · trivial
    · rename_i hne
      refine ⟨fun b hb x h1 h2 => ?_, fun _ s' _ => ?_⟩
      · rcases ha with rfl | ⟨_, _, h3, _⟩
        · exact absurd rfl hne
        · have := h3 b (hF b hb)
          simp only [Block.Disjoint] at this
          omega
      · split <;> trivial

end Calm

namespace Macro

variable {rc : Rustc} {P : Program} {β : Type}

theorem calm_intoArm (e : EVal) (a : IntoArm) {m : Prog TBox} (h : a.runP env rc P e = some m) : Calm env inRange F m := by
  obtain ⟨ev, pl⟩ := e
  cases a with
  | dangling v _ ctr =>
    simp only [IntoArm.runP] at h
    split at h
    · cases h; exact Calm.ret _
    · cases h
  | single v binder ty arg ctr =>
    simp only [IntoArm.runP] at h
    split at h
    · split at h
      · cases h; exact Calm.new
      · cases h
    · cases h
  | tuple v binders tys args ctr =>
    simp only [IntoArm.runP] at h
    split at h
    · split at h
      · cases h; exact Calm.new
      · cases h
    · cases h
  | record v binders decl inits ctr =>
    simp only [IntoArm.runP] at h
    split at h
    · split at h
      · cases h; exact Calm.new
      · cases h
    · cases h

theorem calm_firstInto (e : EVal) : ∀ as, Calm env inRange F (firstIntoP env rc P e as)
  | [] => Calm.panic _
  | a :: as => by
    simp only [firstIntoP]
    split
    · rename_i m h; exact calm_intoArm e a h
    · exact calm_firstInto e as

theorem calm_into (e : EVal) : Calm env inRange F (intoTaggedBoxP env rc P e) := (calm_firstInto e _).cleanup _

theorem calm_readArm (a : ReadArm) (b : TBox) : Calm env inRange F (a.runP env rc P b) := by
  unfold ReadArm.runP
  split
  · exact Calm.ret _
  · exact Calm.read.bind fun _ => Calm.ret _
  · split
    · exact Calm.ret _
    · exact Calm.read.bind fun _ => Calm.ret _
  · split
    · exact Calm.ret _
    · exact Calm.read.bind fun _ => Calm.ret _
  · exact Calm.read.bind fun _ => Calm.ret _

theorem calm_firstRead (b : TBox) : ∀ as, Calm env inRange F (firstReadP env rc P b as)
  | [] => Calm.panic _
  | a :: as => by
    simp only [firstReadP]
    split
    · exact calm_readArm a b
    · exact calm_firstRead b as

theorem calm_refArm (a : RefArm) (b : TBox) : Calm env inRange F (a.buildP env rc P b) := by
  unfold RefArm.buildP
  split
  · exact Calm.ret _
  · exact Calm.read.bind fun _ => Calm.ret _
  · refine Calm.bind ?_ fun _ => Calm.ret _
    split
    · exact Calm.ret _
    · exact Calm.read.bind fun _ => Calm.ret _
  · exact Calm.read.bind fun _ => Calm.ret _

theorem calm_firstRef (b : TBox) {f : EVal → Prog β} (hf : ∀ x, Calm env inRange F (f x)) :
    ∀ as, Calm env inRange F (firstRefP env rc P b f as)
  | [] => Calm.panic _
  | a :: as => by
    simp only [firstRefP]
    split
    · exact (calm_refArm a b).bind fun x => ((hf x.1).bind fun _ => Calm.ret _).cleanup _
    · exact calm_firstRef b hf as

theorem calm_clone (b : TBox) {f : EVal → Prog EVal} (hf : ∀ x, Calm env inRange F (f x)) :
    Calm env inRange F (cloneP env rc P f b) :=
  (calm_firstRef b hf _).bind fun o => by
    cases o with
    | none => exact Calm.panic _
    | some e => exact calm_into e

theorem calm_compare {α : Type} (a b : TBox) {f : EVal × EVal → Prog α} {d : α} (hf : ∀ x, Calm env inRange F (f x)) :
    Calm env inRange F (compareP env rc P f d a b) :=
  (calm_firstRef a (fun _ => calm_firstRef b (fun _ => hf _) _) _).bind fun _ => Calm.ret _

theorem calm_fmt (b : TBox) (out : String) {f : EVal × FmtSpec × String → Prog (String × Bool)} (hf : ∀ x, Calm env inRange F (f x)) :
    Calm env inRange F (fmtP env rc P f b out) :=
  (calm_firstRef b (fun _ => hf _) _).bind fun _ => Calm.ret _

theorem calm_stepP {α : Type} (hs : Handles) {m : Prog α} {f : α → CRes β × Handles} (hm : Calm env inRange F m) :
    Calm env inRange F (stepP hs m f) :=
  (hm.observe _).bind fun x => by
    obtain ⟨r, es⟩ := x
    cases r <;> exact Calm.ret _

theorem calm_withHandle {α : Type} (hs : Handles) (h : Nat) {f : TBox → Prog α} (hf : ∀ b, Calm env inRange F (f b)) :
    Calm env inRange F (withHandle hs h f) := by
  unfold withHandle
  split
  · exact hf _
  · exact Calm.ub _

theorem calm_cstep (hs : Handles) {op : COp Prog β} (ho : op.LeavesAlone env inRange) :
    Calm env inRange F (cstepP env rc P hs op) := by
  cases op with
  | «from» e => exact calm_stepP hs (calm_into e)
  | clone k f => exact calm_withHandle hs k fun b => calm_stepP hs (calm_clone b fun x => Calm.user (ho x))
  | copy k => exact calm_withHandle hs k fun b => calm_stepP hs (Calm.ret _)
  | eq k k' f => 
    exact calm_withHandle hs k fun b => calm_withHandle hs k' fun b' =>
      calm_stepP hs (calm_compare b b' fun x => Calm.user (ho x))
  | partialCmp k k' f => 
    exact calm_withHandle hs k fun b => calm_withHandle hs k' fun b' =>
      calm_stepP hs (calm_compare b b' fun x => Calm.user (ho x))
  | cmp k k' f => 
    exact calm_withHandle hs k fun b => calm_withHandle hs k' fun b' =>
      calm_stepP hs (calm_compare b b' fun x => Calm.user (ho x))
  | observe k f => exact calm_withHandle hs k fun b => calm_stepP hs (calm_firstRef b (fun x => Calm.user (ho x)) _)
  | debug k f out => exact calm_withHandle hs k fun b => calm_stepP hs (calm_fmt b out fun x => Calm.user (ho x))
  | display k f out => exact calm_withHandle hs k fun b => calm_stepP hs (calm_fmt b out fun x => Calm.user (ho x))
  | intoInner k => exact calm_withHandle hs k fun b => calm_stepP hs (calm_firstRead b _)
  | drop k => exact calm_withHandle hs k fun b => calm_stepP hs (Calm.ret _)

/-- A client leaves alone what was there when it started. -/
theorem calm_client {p : CClient Prog β} (hp : p.LeavesAlone env inRange) (hs₀ : Handles) :
    ∀ n, Calm env inRange F (clientP env rc P p hs₀ n)
  | 0 => Calm.ret _
  | n + 1 => (calm_client hp hs₀ n).bind fun r => by
    obtain ⟨os, hs⟩ := r
    show Calm env inRange F (match p os with | none => _ | some op => _)
    cases h : p os with
    | none => exact Calm.ret _
    | some op => exact (calm_cstep hs (hp os op h)).bind fun _ => Calm.ret _

/-! ## Joining -/

variable {decl : List VariantDef}

/-- Containers stay what they are as long as their blocks do. -/
theorem CSim.move (hrc : rc.OK) {c : CState} {vs : List (Option EVal)} (S : CSim env rc decl c vs) {s' : State} (hi : HeapInv env s')
    (hb : ∀ b ∈ c.s.blocks, b ∈ s'.blocks ∧ ∀ x, b.base ≤ x → x < b.base + b.size → s'.mem x = c.s.mem x) :
    CSim env rc decl ⟨s', c.handles⟩ vs :=
  ⟨hi, S.len, S.hnone, fun h e hh => by
    obtain ⟨b, i, h1, h2, h3, h4⟩ := S.hsome h e hh
    refine ⟨b, i, h1, h2, h3, fun d hd sh hsh => ?_⟩
    have h5 := h4 d hd sh hsh
    refine h5.frame (shape_wf hrc hsh) (fun hz => (hb _ (h5.own hz)).1) (fun x x1 x2 => ?_)
    exact (hb _ (h5.own (by omega))).2 x x1 x2⟩

theorem CSim.withAlloc {c : CState} {vs : List (Option EVal)} (S : CSim env rc decl c vs) (al : State → Nat → Nat → Nat) :
    CSim (env.withAlloc al) rc decl c vs :=
  ⟨⟨S.inv.block, S.inv.disjoint⟩, S.len, S.hnone, fun h e hh => by
    obtain ⟨b, i, h1, h2, h3, h4⟩ := S.hsome h e hh
    exact ⟨b, i, h1, h2, h3, fun d hd sh hsh => ⟨(h4 d hd sh hsh).discr, (h4 d hd sh hsh).read, (h4 d hd sh hsh).own⟩⟩⟩

theorem CSim.ofAlloc {c : CState} {vs : List (Option EVal)} {al : State → Nat → Nat → Nat}
    (S : CSim (env.withAlloc al) rc decl c vs) : CSim env rc decl c vs :=
  ⟨⟨S.inv.block, S.inv.disjoint⟩, S.len, S.hnone, fun h e hh => by
    obtain ⟨b, i, h1, h2, h3, h4⟩ := S.hsome h e hh
    exact ⟨b, i, h1, h2, h3, fun d hd sh hsh => ⟨(h4 d hd sh hsh).discr, (h4 d hd sh hsh).read, (h4 d hd sh hsh).own⟩⟩⟩

theorem CSim.append {s : State} {h1 h2 : Handles} {v1 v2 : List (Option EVal)} (S1 : CSim env rc decl ⟨s, h1⟩ v1)
    (S2 : CSim env rc decl ⟨s, h2⟩ v2) : CSim env rc decl ⟨s, h1 ++ h2⟩ (v1 ++ v2) := by
  have l1 : h1.length = v1.length := S1.len
  refine ⟨S1.inv, by simp [l1, show h2.length = v2.length from S2.len], fun k hk => ?_, fun k e hk => ?_⟩
  · simp only [CState.get, List.getElem?_append, l1] at hk ⊢
    split at hk
    · rename_i hlt; rw [if_pos hlt]; exact S1.hnone k hk
    · rename_i hlt; rw [if_neg hlt]; exact S2.hnone _ hk
  · simp only [CState.get, List.getElem?_append, l1] at hk ⊢
    split at hk
    · rename_i hlt; rw [if_pos hlt]; exact S1.hsome k e hk
    · rename_i hlt; rw [if_neg hlt]; exact S2.hsome _ e hk

theorem CSim.flatMap {s : State} (hi : HeapInv env s) {ι : Type} {h : ι → Handles} {v : ι → List (Option EVal)} :
    ∀ is : List ι, (∀ i ∈ is, CSim env rc decl ⟨s, h i⟩ (v i)) → CSim env rc decl ⟨s, is.flatMap h⟩ (is.flatMap v)
  | [], _ => CSim.nil hi
  | i :: is, S => by
    simp only [List.flatMap_cons]
    exact (S i List.mem_cons_self).append (CSim.flatMap hi is fun j hj => S j (List.mem_cons_of_mem _ hj))

end Macro
end TB
