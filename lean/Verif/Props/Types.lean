import Verif.Lemmas.Word
import Verif.DemoMacro
import Verif.Macro.Types

/-!
# Properties of the types: auto traits, sizes, number of data bits
-/

set_option autoImplicit false

namespace TB.Props

open TB.Macro

variable {decl : List VariantDef} {ua : UserAuto}

/-! ## C65 -/

/-- What an obligation needs, holds as well; and conversely. -/
theorem hasAuto_iff {o : Oblig} {os : List Oblig} (h : needs decl ua o = some os) :
    HasAuto decl ua o ↔ ∀ y ∈ os, HasAuto decl ua y := by
  constructor
  · rintro ⟨S, h1, h2⟩ y hy
    obtain ⟨os', e, h3⟩ := h2 o h1
    cases e.symm.trans h
    exact ⟨S, h3 y hy, h2⟩
  · intro hall
    refine ⟨fun x => x = o ∨ HasAuto decl ua x, .inl rfl, ?_⟩
    rintro x (rfl | ⟨S, h1, h2⟩)
    · exact ⟨os, h, fun y hy => .inr (hall y hy)⟩
    · obtain ⟨os', e, h3⟩ := h2 x h1
      exact ⟨os', e, fun y hy => .inr ⟨S, h3 y hy, h2⟩⟩

/-- **C65** for boxes: `TaggedBox<T>` has an auto trait iff `T` has it. (Whatever is stored in the box: `new`, `from_box` and the others
take values of any type.) -/
theorem C65_box (a : AutoTr) (t : RTy) : HasAuto decl ua (a, .taggedBox t) ↔ HasAuto decl ua (a, t) := by
  rw [hasAuto_iff (os := [(a, .taggedPointer), (a, .phantom t)]) rfl]
  have h1 : HasAuto decl ua (a, .taggedPointer) := (hasAuto_iff (os := [(a, .u64)]) rfl).2 fun y hy => by
    rw [List.mem_singleton.1 hy]
    exact (hasAuto_iff (os := []) rfl).2 (by simp)
  have h2 : HasAuto decl ua (a, .phantom t) ↔ HasAuto decl ua (a, t) := by
    rw [hasAuto_iff (os := [(a, t)]) rfl]; simp
  constructor
  · intro h; exact h2.1 (h _ (by simp))
  · intro h y hy
    rcases List.mem_cons.1 hy with rfl | hy
    · exact h1
    · rw [List.mem_singleton.1 hy]; exact h2.2 h

/-- **C65.** The container has an auto trait if and only if every type written in a variant of the declaration has it. -/
theorem C65_auto (a : AutoTr) :
    HasAuto decl ua (a, .container) ↔ ∀ d ∈ decl, ∀ t ∈ d.fields.types, HasAuto decl ua (a, .user t) := by
  rw [hasAuto_iff (os := [(a, .taggedBox .item)]) rfl]
  have h : HasAuto decl ua (a, .item) ↔ ∀ d ∈ decl, ∀ t ∈ d.fields.types, HasAuto decl ua (a, .user t) := by
    rw [hasAuto_iff (os := (decl.flatMap fun d => d.fields.types).map fun t => (a, .user t)) rfl]
    constructor
    · intro h d hd t ht
      exact h _ (List.mem_map.2 ⟨t, List.mem_flatMap.2 ⟨d, hd, ht⟩, rfl⟩)
    · intro h y hy
      obtain ⟨t, ht, rfl⟩ := List.mem_map.1 hy
      obtain ⟨d, hd, ht⟩ := List.mem_flatMap.1 ht
      exact h d hd t ht
  simp only [List.mem_singleton, forall_eq, C65_box, h]

/-- **C65**, recursive enums: fields that are containers of the declaration, or have the trait if the container has it, do no
harm. If every payload type either has the trait or needs nothing but the trait of the container, the container has it. -/
theorem C65_recursive (a : AutoTr)
    (h : ∀ d ∈ decl, ∀ t ∈ d.fields.types,
      HasAuto decl ua (a, .user t) ∨ ∃ os, ua a t = some os ∧ ∀ y ∈ os, y = (a, .container)) :
    HasAuto decl ua (a, .container) := by
  let T : Oblig → Prop := fun x =>
    x = (a, .container) ∨ x = (a, .taggedBox .item) ∨ x = (a, .phantom .item) ∨ x = (a, .item) ∨
    x = (a, .taggedPointer) ∨ x = (a, .u64) ∨ (∃ d ∈ decl, ∃ t ∈ d.fields.types, x = (a, .user t)) ∨ HasAuto decl ua x
  refine ⟨T, .inl rfl, ?_⟩
  have old : ∀ x, HasAuto decl ua x → ∃ os, needs decl ua x = some os ∧ ∀ y ∈ os, T y := by
    rintro x ⟨S, h1, h2⟩
    obtain ⟨os, e, h3⟩ := h2 x h1
    exact ⟨os, e, fun y hy => by simp only [T]; exact .inr (.inr (.inr (.inr (.inr (.inr (.inr ⟨S, h3 y hy, h2⟩))))))⟩
  rintro x (rfl | rfl | rfl | rfl | rfl | rfl | ⟨d, hd, t, ht, rfl⟩ | hx)
  · exact ⟨_, rfl, by simp [T]⟩
  · exact ⟨_, rfl, by simp [T]⟩
  · exact ⟨_, rfl, by simp [T]⟩
  · refine ⟨_, rfl, fun y hy => ?_⟩
    obtain ⟨t, ht, rfl⟩ := List.mem_map.1 hy
    obtain ⟨d, hd, ht⟩ := List.mem_flatMap.1 ht
    simp only [T]
    exact .inr (.inr (.inr (.inr (.inr (.inr (.inl ⟨d, hd, t, ht, rfl⟩))))))
  · exact ⟨_, rfl, by simp [T]⟩
  · exact ⟨_, rfl, by simp⟩
  · rcases h d hd t ht with h | ⟨os, e, h⟩
    · exact old _ h
    · exact ⟨os, e, fun y hy => .inl (h y hy)⟩
  · exact old _ hx

/-- A compiler that knows `u32`, `Rc` (neither `Send` nor `Sync`), `Cell` (`Send`, not `Sync`), `RefCell<..>` of `Rc`, and `Vec` of the
container, and that the container is the container. -/
def uaDemo : UserAuto
  | _, .named "u32" => some []
  | .send, .named "Rc" => none
  | .sync, .named "Rc" => none
  | .sync, .named "Cell" => none
  | _, .named "Rc" => some []
  | _, .named "Cell" => some []
  | a, .named "List" => some [(a, .container)]
  | a, .named "VecList" => some [(a, .user (.named "List"))]
  | .send, .named "RefCell" => some [(.sync, .user (.named "Cell"))]
  | _, _ => none

/-- The hypotheses can be met, and both sides of the equivalence occur: a list with `u32` elements is `Send` and `Sync`, with `Cell`
elements it is `Send` and not `Sync`, with a reference to a `Cell` it is not `Send`, with `Rc` elements neither. -/
def listOf (t : String) : List VariantDef := [⟨"Nil", .unit⟩, ⟨"Cons", .tuple [.named t, .named "List"]⟩]

theorem listOf_auto (a : AutoTr) (t : String) (h : HasAuto (listOf t) uaDemo (a, .user (.named t))) :
    HasAuto (listOf t) uaDemo (a, .container) := by
  refine C65_recursive a fun d hd x hx => ?_
  simp only [listOf, List.mem_cons, List.not_mem_nil, or_false] at hd
  rcases hd with rfl | rfl
  · simp [Fields.types] at hx
  · simp only [Fields.types, List.mem_cons, List.not_mem_nil, or_false] at hx
    rcases hx with rfl | rfl
    · exact .inl h
    · exact .inr ⟨[(a, .container)], by cases a <;> rfl, by simp⟩

example (a : AutoTr) : HasAuto (listOf "u32") uaDemo (a, .container) :=
  listOf_auto a _ ((hasAuto_iff (os := []) (by cases a <;> rfl)).2 (by simp))

example : HasAuto (listOf "Cell") uaDemo (.send, .container) :=
  listOf_auto .send _ ((hasAuto_iff (os := []) rfl).2 (by simp))

theorem no_auto {o : Oblig} (h : needs decl ua o = none) : ¬ HasAuto decl ua o := by
  rintro ⟨S, h1, h2⟩
  obtain ⟨os, e, _⟩ := h2 o h1
  cases e.symm.trans h

example : ¬ HasAuto (listOf "Cell") uaDemo (.sync, .container) := fun h =>
  no_auto rfl ((C65_auto _).1 h ⟨"Cons", .tuple [.named "Cell", .named "List"]⟩ (by simp [listOf]) (.named "Cell") (by simp [Fields.types]))

example : ¬ HasAuto (listOf "RefCell") uaDemo (.send, .container) := fun h =>
  no_auto (ua := uaDemo) (decl := listOf "RefCell") (o := (.sync, .user (.named "Cell"))) rfl
    ((hasAuto_iff (os := [(.sync, .user (.named "Cell"))]) rfl).1
      ((C65_auto _).1 h ⟨"Cons", .tuple [.named "RefCell", .named "List"]⟩ (by simp [listOf]) (.named "RefCell")
        (by simp [Fields.types])) _ (by simp))

example (a : AutoTr) (ha : a = .send ∨ a = .sync) : ¬ HasAuto (listOf "Rc") uaDemo (a, .container) := fun h =>
  no_auto (by rcases ha with rfl | rfl <;> rfl)
    ((C65_auto _).1 h ⟨"Cons", .tuple [.named "Rc", .named "List"]⟩ (by simp [listOf]) (.named "Rc") (by simp [Fields.types]))

/-! ## C66 -/

/-- The claim ("store an enum on the stack with only `usize` bytes of memory", `mod.rs:702-703`): the container is accepted and has the
size of a `usize`. -/
def C66_Statement : Prop := ∀ t : Target, t.OK → ∃ l, containerLayout t = some l ∧ l.size = t.usizeBytes

/-- **C66**, the part that holds: on every target the container and `TaggedBox<T>`, for every `T`, have size 8 and the alignment of `u64`; so
the claim holds on 64-bit targets. Missing: 32-bit targets, where `usize` has 4 bytes (`C66_refuted`). -/
theorem C66_partial (t : Target) :
    containerLayout t = some ⟨8, t.alignU64⟩ ∧ boxLayout t = some ⟨8, t.alignU64⟩ ∧
    (t.ptrBits = 64 → (8 : Nat) = t.usizeBytes) ∧ (t.ptrBits = 32 → (8 : Nat) = 2 * t.usizeBytes) := by
  have key : ∀ a : Nat, transparent [⟨8, a⟩] = some ⟨8, a⟩ ∧ transparent [⟨8, a⟩, ⟨0, 1⟩] = some ⟨8, a⟩ := by
    intro a
    have e : ((⟨8, a⟩ : SA) != ⟨0, 1⟩) = true := by simp
    constructor <;> simp [transparent, List.filter, e]
  refine ⟨?_, ?_, fun e => ?_, fun e => ?_⟩
  · simp only [containerLayout, boxLayout, ptrLayout, (key _).1, (key _).2, Option.bind_eq_bind, Option.bind_some]
  · simp only [boxLayout, ptrLayout, (key _).1, (key _).2, Option.bind_eq_bind, Option.bind_some]
  · rw [Target.usizeBytes, e]
  · rw [Target.usizeBytes, e]

/-- **C66 does not hold** on 32-bit targets. -/
theorem C66_refuted : ¬ C66_Statement := by
  intro h
  obtain ⟨l, e, hl⟩ := h ⟨32, 8⟩ ⟨.inl rfl, .inr rfl⟩
  rw [(C66_partial ⟨32, 8⟩).1] at e
  cases e
  cases hl

example : Target.OK ⟨64, 8⟩ := ⟨.inr rfl, .inr rfl⟩
/-- `i686-unknown-linux-gnu` aligns `u64` to 4. -/
example : Target.OK ⟨32, 4⟩ := ⟨.inl rfl, .inl rfl⟩

/-! ## C67 -/

/-- `d` can be stored beside every address that fits, and read back. -/
def Storable (c : Config) (debug : Bool) (d : c.Discr) : Prop :=
  ∀ p : BitVec 64, p.toNat < 2 ^ c.POINTER_WIDTH → ∃ t, TPtr.new c debug p d = .ok t ∧ t.discriminant c = d ∧ t.asU64 c = p

/-- `k` bits of arbitrary data can be stored: all numbers below `2^k`. -/
def Bits (c : Config) (debug : Bool) (k : Nat) : Prop := ∀ n, n < 2 ^ k → ∃ d : c.Discr, d.toNat = n ∧ Storable c debug d

/-- The claim ("allows you to store anywhere from 7 to 16 bits of arbitrary data in your pointer, depending on the settings", `README.md`,
`src/lib.rs`). -/
def C67_Statement : Prop := ∀ c ∈ table, ∀ debug, ∃ k, 7 ≤ k ∧ k ≤ 16 ∧ Bits c debug k

/-- **C67**, exactly what can be stored: in release builds the numbers of `64 - width` bits, in debug builds those up to
`MAX_DISCRIMINANT`; there are 1 to 16 data bits; and 7 of them iff the setting is `57bits` or below. So the claim holds for those settings; the
others, the default `60bits` among them, have fewer (`C67_refuted`). -/
theorem C67_partial (c : Config) (hc : c ∈ table) :
    (∀ d, Storable c false d ↔ d.toNat < 2 ^ (64 - c.POINTER_WIDTH)) ∧ (∀ d, Storable c true d ↔ d ≤ c.MAX_DISCRIMINANT) ∧
    1 ≤ 64 - c.POINTER_WIDTH ∧ 64 - c.POINTER_WIDTH ≤ 16 ∧
    (∀ k, Bits c false k ↔ k ≤ 64 - c.POINTER_WIDTH) ∧
    (∀ k, Bits c true k ↔ k ≤ 64 - c.POINTER_WIDTH ∧ (c.POINTER_WIDTH = 52 → k ≤ 11)) := by
  have s := sane_of_mem hc
  have h0 : (0#64).toNat < 2 ^ c.POINTER_WIDTH := Nat.two_pow_pos _
  have hr : ∀ d, Storable c false d ↔ d.toNat < 2 ^ (64 - c.POINTER_WIDTH) := by
    intro d
    rw [Config.POINTER_WIDTH, ← s.free_eq]
    constructor
    · intro h
      obtain ⟨t, _, h2, _⟩ := h 0#64 h0
      rw [← h2]
      exact s.fetch_lt _
    · intro h p hp
      have hp : p.toNat < 2 ^ c.ptrWidth := hp
      refine ⟨⟨TPtr.storeDiscriminant c p d⟩, by simp [TPtr.new], ?_, ?_⟩
      · apply BitVec.eq_of_toNat_eq
        rw [TPtr.discriminant, s.fetch_store, Nat.mod_eq_of_lt h, Nat.div_eq_of_lt hp, Nat.zero_or]
      · apply BitVec.eq_of_toNat_eq
        rw [TPtr.asU64, s.strip_store, Nat.mod_eq_of_lt hp]
  have hd : ∀ d, Storable c true d ↔ d ≤ c.MAX_DISCRIMINANT := by
    intro d
    constructor
    · intro h
      obtain ⟨t, h1, _⟩ := h 0#64 h0
      apply Classical.byContradiction
      intro hn
      simp [TPtr.new, hn] at h1
    · intro h p hp
      have hp : p.toNat < 2 ^ c.ptrWidth := hp
      have hd' := Nat.lt_of_le_of_lt ((s.le_maxDiscr_iff d).1 h) s.max_lt
      refine ⟨⟨TPtr.storeDiscriminant c p d⟩, by simp [TPtr.new, h, (s.le_maxPtr_iff p).2 hp], ?_, ?_⟩
      · apply BitVec.eq_of_toNat_eq
        rw [TPtr.discriminant, s.fetch_store, Nat.mod_eq_of_lt hd', Nat.div_eq_of_lt hp, Nat.zero_or]
      · apply BitVec.eq_of_toNat_eq
        rw [TPtr.asU64, s.strip_store, Nat.mod_eq_of_lt hp]
  have rows : 1 ≤ 64 - c.POINTER_WIDTH ∧ 64 - c.POINTER_WIDTH ≤ 16 ∧ 64 - c.ptrWidth ≤ c.discrBits ∧
      (∀ k, k ≤ 64 - c.ptrWidth → ((c.ptrWidth = 52 → k ≤ 11) ↔ 2 ^ k - 1 ≤ c.maxDiscr)) := by
    clear hr hd s h0
    simp only [table, List.mem_cons, List.not_mem_nil, or_false] at hc
    have key : ∀ w m : Nat, 48 ≤ w → (w ≠ 52 → 2 ^ (64 - w) - 1 = m) → (w = 52 → m = 4068) →
        ∀ k, k ≤ 64 - w → ((w = 52 → k ≤ 11) ↔ 2 ^ k - 1 ≤ m) := by
      intro w m _ h1 h2 k hk
      by_cases e : w = 52
      · have h3 := h2 e
        subst h3 e
        constructor
        · intro h
          have : 2 ^ k ≤ 2 ^ 11 := Nat.pow_le_pow_right (by decide) (h rfl)
          omega
        · intro h _
          apply Classical.byContradiction
          intro hn
          have : 2 ^ 12 ≤ 2 ^ k := Nat.pow_le_pow_right (by decide) (by omega)
          omega
      · have h3 := h1 e
        have : 2 ^ k ≤ 2 ^ (64 - w) := Nat.pow_le_pow_right (by decide) hk
        constructor
        · intro _; omega
        · intro _ h; exact absurd h e
    rcases hc with rfl | rfl | rfl | rfl | rfl | rfl | rfl | rfl | rfl | rfl | rfl | rfl | rfl | rfl | rfl | rfl <;>
      exact ⟨by decide, by decide, by decide, key _ _ (by decide) (by decide) (by decide)⟩
  obtain ⟨r1, r2, r3, r4⟩ := rows
  have small : ∀ k, k ≤ 64 - c.POINTER_WIDTH → ∀ n, n < 2 ^ k → (BitVec.ofNat c.discrBits n).toNat = n := by
    intro k hk n hn
    rw [BitVec.toNat_ofNat, Nat.mod_eq_of_lt]
    exact Nat.lt_of_lt_of_le hn (Nat.pow_le_pow_right (by decide) (Nat.le_trans hk r3))
  have up : ∀ debug k, Bits c debug k → k ≤ 64 - c.POINTER_WIDTH := by
    intro debug k h
    apply Classical.byContradiction
    intro hn
    obtain ⟨d, e, hst⟩ := h (2 ^ (64 - c.POINTER_WIDTH)) (Nat.pow_lt_pow_right (by decide) (by omega))
    have : d.toNat < 2 ^ (64 - c.POINTER_WIDTH) := by
      rw [Config.POINTER_WIDTH, ← s.free_eq]
      obtain ⟨t, _, h2, _⟩ := hst 0#64 h0
      rw [← h2]
      exact s.fetch_lt _
    omega
  refine ⟨hr, hd, r1, r2, fun k => ⟨up _ k, fun hk n hn => ⟨BitVec.ofNat _ n, small k hk n hn, (hr _).2 ?_⟩⟩, fun k => ⟨fun h => ?_, fun h n hn => ?_⟩⟩
  · rw [small k hk n hn]
    exact Nat.lt_of_lt_of_le hn (Nat.pow_le_pow_right (by decide) hk)
  · refine ⟨up _ k h, (r4 k (up _ k h)).2 ?_⟩
    obtain ⟨d, e, hst⟩ := h (2 ^ k - 1) (by have := Nat.two_pow_pos k; omega)
    have := (s.le_maxDiscr_iff d).1 ((hd d).1 hst)
    omega
  · refine ⟨BitVec.ofNat _ n, small k h.1 n hn, (hd _).2 ((s.le_maxDiscr_iff _).2 ?_)⟩
    rw [small k h.1 n hn]
    have := (r4 k h.1).1 h.2
    omega

/-- **C67 does not hold** at the default setting, which has 4 data bits. -/
theorem C67_refuted : ¬ C67_Statement := by
  intro h
  have hc : (⟨"tagged_box_reserve_60bits", 8, 15, 60, 4⟩ : Config) ∈ table := by decide
  obtain ⟨k, h1, _, h2⟩ := h _ hc false
  have h3 := ((C67_partial _ hc).2.2.2.2.1 k).1 h2
  simp only [Config.POINTER_WIDTH] at h3
  omega

/-- At `52bits` in a debug build 11 bits, not 12, of arbitrary data can be stored. -/
example : let c : Config := ⟨"tagged_box_reserve_52bits", 16, 4068, 52, 12⟩
    Bits c false 12 ∧ Bits c true 11 ∧ ¬ Bits c true 12 := by
  intro c
  have hc : c ∈ table := by decide
  have h := (C67_partial c hc).2.2.2.2
  refine ⟨(h.1 12).2 (by decide), (h.2 11).2 ⟨by decide, fun _ => by decide⟩, fun h12 => ?_⟩
  exact absurd (((h.2 12).1 h12).2 rfl) (by decide)

end TB.Props
