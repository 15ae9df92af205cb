import Verif.Spec.Union
import Verif.Props.AnyAddr
/-
C70: the unions inside the version agnostic classes are read through their active member only.
-/
set_option autoImplicit false

namespace Ip
open Spec

/-- The object that an abstract address stands for. -/
def AnyAddr.raw : AnyAddr → RawAddr
  | .v4 b => ⟨.first b, .V4⟩
  | .v6 a => ⟨.second a, .V6⟩

/-- The object that an abstract network stands for. -/
def AnyNet.raw : AnyNet → RawNet
  | .v4 n => ⟨.first n, .V4⟩
  | .v6 n => ⟨.second n, .V6⟩

/-- The object that an abstract iterator stands for. -/
def AnyIt.raw {I4 I6 V : Type} : AnyIt I4 I6 V → RawIt I4 I6 V
  | .v4 x cur => ⟨⟨.first x, .V4⟩, cur⟩
  | .v6 x cur => ⟨⟨.second x, .V6⟩, cur⟩

theorem AnyAddr.raw_inj {a b : AnyAddr} (h : a.raw = b.raw) : a = b := by
  cases a <;> cases b <;> simp [AnyAddr.raw] at h <;> simp [h]

theorem AnyNet.raw_inj {a b : AnyNet} (h : a.raw = b.raw) : a = b := by
  cases a <;> cases b <;> simp [AnyNet.raw] at h <;> simp [h]

theorem TagRight.addr {x : RawAddr} (h : TagRight x) : ∃ a : AnyAddr, x = a.raw := by
  rcases h with ⟨a, rfl⟩ | ⟨b, rfl⟩
  · exact ⟨.v4 a, rfl⟩
  · exact ⟨.v6 b, rfl⟩

theorem TagRight.net {x : RawNet} (h : TagRight x) : ∃ a : AnyNet, x = a.raw := by
  rcases h with ⟨a, rfl⟩ | ⟨b, rfl⟩
  · exact ⟨.v4 a, rfl⟩
  · exact ⟨.v6 b, rfl⟩

/-- C70: an object whose tag disagrees with its union has undefined behaviour when it is read, so the theorems below say
something; and the tag agrees exactly when reading the bytes is defined. -/
theorem C70_wrong_tag (x : RawAddr) : TagRight x ↔ x.data ≠ .ub := by
  rcases x with ⟨m, v⟩
  cases m <;> cases v <;>
    simp [TagRight, RawAddr.data, Tagged.pick, Tagged.isV4, Union.get1, Union.get2, bind, Res.bind]

example : ¬ TagRight (⟨.second ⟨List.replicate 16 0#8, ⟨[], 0⟩⟩, .V4⟩ : RawAddr) := by simp [TagRight]

/-! ### Addresses -/

/-- C70: the member functions of an `ip_address` whose tag is right are those of the address it holds: no function reads
the other member. -/
theorem C70_address (c : Cfg) (x : RawAddr) (hx : TagRight x) :
    ∃ a : AnyAddr, x = a.raw ∧ x.version.num = anyVersion a ∧ x.isV4 = anyIsV4 a ∧ x.isV6 = anyIsV6 a ∧
    RawAddr.isMulticast c x = anyIsMulticast c a ∧ RawAddr.isPrivate c x = anyIsPrivate c a ∧
    RawAddr.isGlobal c x = anyIsGlobal c a ∧ RawAddr.isReserved c x = anyIsReserved c a ∧
    RawAddr.isLoopback c x = anyIsLoopback c a ∧ RawAddr.isLinkLocal c x = anyIsLinkLocal c a ∧
    RawAddr.isUnspecified x = .ok (anyIsUnspecified a) ∧ RawAddr.isSiteLocal c x = anyIsSiteLocal c a ∧
    RawAddr.size x = .ok (anySize a) ∧ RawAddr.hash c.conv x = anyHash c.conv a ∧
    RawAddr.mapped x = anyMapped a ∧ RawAddr.sixToFour x = anySixToFour a ∧ RawAddr.teredo x = anyTeredo a ∧
    RawAddr.v4 x = .ok (anyV4 a) ∧ RawAddr.v6 x = .ok (anyV6 a) ∧ RawAddr.data x = .ok (anyData a) ∧
    RawAddr.toUint32 c.le x = anyToUint32 c.le a ∧ RawAddr.toUint128 c.le x = anyToUint128 c.le a ∧
    (∀ fmt, RawAddr.toString c.M fmt x = anyToString c.M fmt a) ∧
    RawAddr.reversePointer c.le c.M x = anyReversePointer c.le c.M a ∧ RawAddr.getScope c.M x = anyScopeObject c.M a := by
  obtain ⟨a, rfl⟩ := TagRight.addr hx
  refine ⟨a, rfl, ?_⟩
  cases a <;>
    simp [AnyAddr.raw, Tagged.isV4, Tagged.isV6, IpVersion.num, anyVersion, anyIsV4, anyIsV6, Tagged.pick, Union.get1,
      Union.get2, RawAddr.isMulticast, RawAddr.isPrivate, RawAddr.isGlobal, RawAddr.isReserved, RawAddr.isLoopback,
      RawAddr.isLinkLocal, RawAddr.isUnspecified, RawAddr.isSiteLocal, RawAddr.size, RawAddr.hash, RawAddr.mapped,
      RawAddr.sixToFour, RawAddr.teredo, RawAddr.v4, RawAddr.v6, RawAddr.data, RawAddr.toUint32, RawAddr.toUint128,
      RawAddr.toString, RawAddr.reversePointer, RawAddr.getScope, anyIsMulticast, anyIsPrivate, anyIsGlobal,
      anyIsReserved, anyIsLoopback, anyIsLinkLocal, anyIsUnspecified, anyIsSiteLocal, anySize, anyHash, anyMapped,
      anySixToFour, anyTeredo, anyV4, anyV6, anyData, anyToUint32, anyToUint128, anyToString, anyReversePointer,
      anyScopeObject]

example : TagRight (AnyAddr.v6 exScoped).raw := .inr ⟨_, rfl⟩

/-- C70: comparison of two addresses. -/
theorem C70_address_pair (c : Cfg) (x y : RawAddr) (hx : TagRight x) (hy : TagRight y) :
    ∃ a b : AnyAddr, x = a.raw ∧ y = b.raw ∧ RawAddr.eq c.val x y = anyEquals c.val a b ∧
      RawAddr.cmp c.val x y = anyCompare c.val a b ∧ RawAddr.lt c.val x y = anyLess c.val a b := by
  obtain ⟨a, rfl⟩ := TagRight.addr hx
  obtain ⟨b, rfl⟩ := TagRight.addr hy
  refine ⟨a, b, rfl, rfl, ?_⟩
  cases a <;> cases b <;> exact ⟨rfl, rfl, rfl⟩

example := C70_address_pair exCfg (AnyAddr.v6 exScoped).raw (AnyAddr.v4 [10, 0, 0, 1]).raw (.inr ⟨_, rfl⟩) (.inl ⟨_, rfl⟩)

/-- C70: `set_scope_id` keeps the tag right. -/
theorem C70_set_scope (spaces : Bool) (M : Nat) (a : AnyAddr) (size : Nat) (evs : List Ev) :
    RawAddr.setScope spaces M a.raw size evs =
      (do let r ← anySetScope spaces M a size evs
          .ok (r.1.raw, r.2)) := by
  cases a with
  | v4 b => rfl
  | v6 a =>
    simp only [RawAddr.setScope, AnyAddr.raw, anySetScope, if_pos, Union.get2, Res.ok_bind]
    cases v6SetScope spaces M a size evs <;> rfl

/-- C70: the constructors and factories. -/
theorem C70_factories (c : Cfg) :
    RawAddr.default = anyDefault.raw ∧ (∀ b, (Tagged.of1 b : RawAddr) = (AnyAddr.v4 b).raw) ∧
    (∀ a, (Tagged.of2 a : RawAddr) = (AnyAddr.v6 a).raw) ∧ (∀ b, RawAddr.ofBytes6 c.M b = (anyOfBytes6 c.M b).raw) ∧
    (∀ src count v, RawAddr.fromBytes c.M src count v =
      (do let a ← anyFromBytes c.M src count (decide (v = .V6))
          .ok a.raw)) ∧
    (∀ s, RawAddr.parse c.spaces c.M s =
      (do let a ← anyParse c.spaces c.M s
          .ok a.raw)) := by
  refine ⟨rfl, fun _ => rfl, fun _ => rfl, fun _ => rfl, fun src count v => ?_, fun s => ?_⟩
  · cases v
    · simp only [RawAddr.fromBytes, anyFromBytes]
      cases fromBytes 4 src count <;> rfl
    · simp only [RawAddr.fromBytes, anyFromBytes]
      cases fromBytes 16 src count <;> rfl
  · simp only [RawAddr.parse, anyParse, anyFromEvents]
    cases v4FromEvents (readChars s) with
    | ok b => rfl
    | err e v => cases v6FromEvents c.spaces c.M (readChars s) <;> rfl
    | ub => rfl

/-! ### Programs -/

theorem Spec.RawGood.right {c : Cfg} {x : RawAddr} (h : RawGood c x) : TagRight x := by
  rcases h with ⟨b, rfl, _⟩ | ⟨a, rfl, _⟩
  · exact .inl ⟨_, rfl⟩
  · exact .inr ⟨_, rfl⟩

theorem rd_mem {α : Type} {l : List α} {i : Nat} (h : i < l.length) : ∃ x, rd l i = .ok x ∧ x ∈ l :=
  ⟨l[i], by simp [rd, h], List.getElem_mem h⟩

theorem wr_all {α : Type} {P : α → Prop} {l : List α} {i : Nat} {x : α} (h : i < l.length) (hl : ∀ y ∈ l, P y) (hx : P x) :
    ∃ l', wr l i x = .ok l' ∧ l'.length = l.length ∧ ∀ y ∈ l', P y := by
  refine ⟨l.set i x, by simp [wr, h], by simp, fun y hy => ?_⟩
  rcases List.mem_or_eq_of_mem_set hy with h' | h'
  · exact hl y h'
  · rw [h']; exact hx

theorem emptyScope_good (c : Cfg) (b : List (BitVec 8)) (hb : b.length = 16) : V6.Good c.spaces c.M ⟨b, emptyScope c.M⟩ := by
  have e : (emptyScope c.M).contents = [] := by simp [emptyScope, FStr.contents]
  refine ⟨⟨hb, ?_, ?_⟩, ?_, ?_⟩
  · simp [FStr.WF, emptyScope]
  · simp [emptyScope]
  · simp only [e]; exact ⟨by simp, by simp⟩
  · simp only [e]; simp

theorem step_good (c : Cfg) (store : List RawAddr) (hs : ∀ x ∈ store, RawGood c x) (s : ObjStmt) (h : StmtOk c store.length s) :
    ∃ store', RawAddr.step c store s = .ok store' ∧ store'.length = objectsAfter store.length s ∧ ∀ x ∈ store', RawGood c x := by
  have snoc : ∀ x : RawAddr, RawGood c x → ∃ store', (.ok (store ++ [x]) : Res (List RawAddr)) = .ok store' ∧
      store'.length = store.length + 1 ∧ ∀ x ∈ store', RawGood c x := by
    intro x hx
    refine ⟨_, rfl, by simp, fun y hy => ?_⟩
    rcases List.mem_append.1 hy with h' | h'
    · exact hs y h'
    · rw [List.mem_singleton.1 h']; exact hx
  have dflt : RawGood c RawAddr.default := .inl ⟨_, rfl, rfl⟩
  cases s with
  | default => exact snoc _ dflt
  | of4 b => exact snoc _ (.inl ⟨_, rfl, h⟩)
  | of6 a => exact snoc _ (.inr ⟨_, rfl, h⟩)
  | bytes6 b => exact snoc _ (.inr ⟨_, rfl, emptyScope_good c b h⟩)
  | parse s =>
    cases h4 : v4FromEvents (readChars s) with
    | ok b =>
      obtain ⟨_, _, _, _, rfl, _⟩ := v4FromEvents_ok h4
      simpa [RawAddr.step, RawAddr.parse, h4, objectsAfter] using snoc (.of1 _) (.inl ⟨_, rfl, rfl⟩)
    | ub => exact absurd h4 (v4FromEvents_ne_ub _)
    | err e v =>
      cases h6 : v6FromEvents c.spaces c.M (readChars s) with
      | ok a =>
        simpa [RawAddr.step, RawAddr.parse, h4, h6, objectsAfter] using
          snoc (.of2 a) (.inr ⟨_, rfl, (C13_v6_parser_safe _ _ _).2 a h6⟩)
      | ub => exact absurd h6 (C13_v6_parser_safe _ _ _).1
      | err e' v' => simpa [RawAddr.step, RawAddr.parse, h4, h6, objectsAfter, bind, Res.bind] using snoc _ dflt
  | fromBytes src count v =>
    cases v with
    | V4 =>
      obtain ⟨r, h1, h2, _⟩ := C07_from_bytes 4 src count h
      have := snoc (.of1 r) (.inl ⟨_, rfl, h2⟩)
      simpa [RawAddr.step, RawAddr.fromBytes, h1, objectsAfter] using this
    | V6 =>
      obtain ⟨r, h1, h2, _⟩ := C07_from_bytes 16 src count h
      have := snoc (RawAddr.ofBytes6 c.M r) (.inr ⟨_, rfl, emptyScope_good c r h2⟩)
      simpa [RawAddr.step, RawAddr.fromBytes, h1, objectsAfter] using this
  | copy i =>
    obtain ⟨x, h1, h2⟩ := rd_mem h
    have := snoc x (hs x h2)
    simpa [RawAddr.step, h1, objectsAfter] using this
  | assign i j =>
    obtain ⟨x, h1, h2⟩ := rd_mem h.2
    obtain ⟨l', k1, k2, k3⟩ := wr_all h.1 hs (hs x h2)
    exact ⟨l', by simp [RawAddr.step, h1, k1], k2, k3⟩
  | swap i j =>
    obtain ⟨x, h1, h2⟩ := rd_mem h.1
    obtain ⟨y, h3, h4⟩ := rd_mem h.2
    obtain ⟨l', k1, k2, k3⟩ := wr_all h.1 hs (hs y h4)
    obtain ⟨l'', k4, k5, k6⟩ := wr_all (i := j) (by rw [k2]; exact h.2) k3 (hs x h2)
    exact ⟨l'', by simp [RawAddr.step, h1, h3, k1, k4], by rw [k5, k2]; rfl, k6⟩
  | setScope i s =>
    obtain ⟨x, h1, h2⟩ := rd_mem h
    have fin : ∀ r : RawAddr × Option ErrorCode, RawGood c r.1 →
        RawAddr.setScope c.spaces c.M x s.length (readChars s) = .ok r →
        ∃ store', RawAddr.step c store (.setScope i s) = .ok store' ∧
          store'.length = objectsAfter store.length (.setScope i s) ∧ ∀ x ∈ store', RawGood c x := by
      intro r hr e
      obtain ⟨l', k1, k2, k3⟩ := wr_all h hs hr
      exact ⟨l', by simp [RawAddr.step, h1, e, k1], k2, k3⟩
    rcases hs x h2 with ⟨b, rfl, hb⟩ | ⟨a, rfl, ha⟩
    · exact fin (_, none) (.inl ⟨b, rfl, hb⟩) rfl
    · obtain ⟨b, e, k1, k2, _⟩ := C17_set_scope_safe c.spaces c.M a ha s.length (readChars s) (by simp [readChars])
      refine fin (⟨.second b, .V6⟩, e) (.inr ⟨b, rfl, k2⟩) ?_
      simp [RawAddr.setScope, Union.get2, k1]

/-- C70: in a program that creates, parses, copies, assigns and exchanges addresses and sets their scope ids in any
order, every object has the right tag and a valid address at all times, and no statement has undefined behaviour. -/
theorem C70_programs (c : Cfg) (p : List ObjStmt) (hp : ProgramOk c 0 p) :
    ∃ store, RawAddr.run c [] p = .ok store ∧ ∀ x ∈ store, RawGood c x ∧ TagRight x := by
  have key : ∀ (p : List ObjStmt) (store : List RawAddr), (∀ x ∈ store, RawGood c x) → ProgramOk c store.length p →
      ∃ store', RawAddr.run c store p = .ok store' ∧ ∀ x ∈ store', RawGood c x := by
    intro p
    induction p with
    | nil => exact fun store hs _ => ⟨store, rfl, hs⟩
    | cons s ss ih =>
      intro store hs hp
      obtain ⟨st, h1, h2, h3⟩ := step_good c store hs s hp.1
      obtain ⟨st', h4, h5⟩ := ih st h3 (by rw [h2]; exact hp.2)
      exact ⟨st', by simp [RawAddr.run, h1, h4], h5⟩
  obtain ⟨st, h1, h2⟩ := key p [] (by simp) hp
  exact ⟨st, h1, fun x hx => ⟨h2 x hx, Spec.RawGood.right (h2 x hx)⟩⟩

example : ProgramOk exCfg 0 [.default, .parse "fe80::1".toList, .swap 0 1, .setScope 0 "eth0".toList, .assign 1 0, .copy 1] := by
  simp [ProgramOk, StmtOk, objectsAfter]

/-! ### Networks -/

theorem both_cases {A B R : Type} (o : Res R) (f : A → A → Res R) (g : B → B → Res R) :
    (∀ a b, Tagged.both o f g ⟨.first a, .V4⟩ ⟨.first b, .V4⟩ = f a b) ∧
    (∀ a b, Tagged.both o f g ⟨.second a, .V6⟩ ⟨.second b, .V6⟩ = g a b) ∧
    (∀ a b, Tagged.both o f g ⟨.first a, .V4⟩ ⟨.second b, .V6⟩ = o) ∧
    (∀ a b, Tagged.both o f g ⟨.second a, .V6⟩ ⟨.first b, .V4⟩ = o) :=
  ⟨fun _ _ => rfl, fun _ _ => rfl, fun _ _ => rfl, fun _ _ => rfl⟩

theorem threeWay_cases {A B : Type} (f : A → A → Res Ordering) (g : B → B → Res Ordering) :
    (∀ a b, Tagged.threeWay f g ⟨.first a, .V4⟩ ⟨.first b, .V4⟩ = f a b) ∧
    (∀ a b, Tagged.threeWay f g ⟨.second a, .V6⟩ ⟨.second b, .V6⟩ = g a b) ∧
    (∀ a b, Tagged.threeWay f g ⟨.first a, .V4⟩ ⟨.second b, .V6⟩ = .ok .lt) ∧
    (∀ a b, Tagged.threeWay f g ⟨.second a, .V6⟩ ⟨.first b, .V4⟩ = .ok .gt) :=
  ⟨fun _ _ => rfl, fun _ _ => rfl, fun _ _ => rfl, fun _ _ => rfl⟩

theorem less_cases {A B : Type} (f : A → A → Res Bool) (g : B → B → Res Bool) :
    (∀ a b, Tagged.less f g ⟨.first a, .V4⟩ ⟨.first b, .V4⟩ = f a b) ∧
    (∀ a b, Tagged.less f g ⟨.second a, .V6⟩ ⟨.second b, .V6⟩ = g a b) ∧
    (∀ a b, Tagged.less f g ⟨.first a, .V4⟩ ⟨.second b, .V6⟩ = .ok true) ∧
    (∀ a b, Tagged.less f g ⟨.second a, .V6⟩ ⟨.first b, .V4⟩ = .ok false) :=
  ⟨fun _ _ => rfl, fun _ _ => rfl, fun _ _ => rfl, fun _ _ => rfl⟩

theorem relation_cases (f : Net (List (BitVec 8)) → Net (List (BitVec 8)) → Res Bool) (g : Net V6 → Net V6 → Res Bool) :
    (∀ a b, RawNet.relation f g ⟨.first a, .V4⟩ ⟨.first b, .V4⟩ = f a b) ∧
    (∀ a b, RawNet.relation f g ⟨.second a, .V6⟩ ⟨.second b, .V6⟩ = g a b) ∧
    (∀ a b, RawNet.relation f g ⟨.first a, .V4⟩ ⟨.second b, .V6⟩ = .ok false) ∧
    (∀ a b, RawNet.relation f g ⟨.second a, .V6⟩ ⟨.first b, .V4⟩ = .ok false) :=
  ⟨fun _ _ => rfl, fun _ _ => rfl, fun _ _ => rfl, fun _ _ => rfl⟩

theorem pick_first {A B R : Type} (f : A → Res R) (g : B → Res R) (a : A) : Tagged.pick f g ⟨.first a, .V4⟩ = f a := by
  simp [Tagged.pick, Tagged.isV4, Union.get1]

theorem pick_second {A B R : Type} (f : A → Res R) (g : B → Res R) (b : B) : Tagged.pick f g ⟨.second b, .V6⟩ = g b := by
  simp [Tagged.pick, Tagged.isV4, Union.get2]

/-- C70: the same for the observers of an `ip_network`; the addresses it returns have the right tag. -/
theorem C70_network (c : Cfg) (x : RawNet) (hx : TagRight x) :
    ∃ n : AnyNet, x = n.raw ∧ RawNet.prefixlen x = .ok (anyNetPlen n) ∧
    RawNet.address x = .ok (anyNetAddress n).raw ∧ RawNet.netmask x = .ok (anyNetMask n).raw ∧
    RawNet.hostmask c x = .ok (anyNetHostmask c n).raw ∧
    RawNet.broadcast c x = (do
      let b ← anyNetBroadcast c n
      .ok b.raw) ∧
    RawNet.isMulticast c x = anyNetIsMulticast c n ∧ RawNet.isPrivate c x = anyNetIsPrivate c n ∧
    RawNet.isGlobal c x = anyNetIsGlobal c n ∧ RawNet.isReserved c x = anyNetIsReserved c n ∧
    RawNet.isLoopback c x = anyNetIsLoopback c n ∧ RawNet.isLinkLocal c x = anyNetIsLinkLocal c n ∧
    RawNet.isUnspecified c x = anyNetIsUnspecified c n ∧ RawNet.isSiteLocal c x = anyNetIsSiteLocal c n ∧
    RawNet.hash c x = anyNetHash c n ∧ RawNet.count c x = anyNetCount c n ∧
    (∀ fmt, RawNet.toString c fmt x = anyNetToString c fmt n) ∧
    (∀ diff newp, RawNet.supernet c x diff newp = (do
      let r ← anyNetSupernet c n diff newp
      .ok r.raw)) := by
  obtain ⟨n, rfl⟩ := TagRight.net hx
  refine ⟨n, rfl, ?_⟩
  cases n with
  | v4 n =>
    simp -implicitDefEqProofs only [AnyNet.raw, RawNet.prefixlen, RawNet.address, RawNet.netmask, RawNet.hostmask, RawNet.broadcast,
      RawNet.isMulticast, RawNet.isPrivate, RawNet.isGlobal, RawNet.isReserved, RawNet.isLoopback, RawNet.isLinkLocal,
      RawNet.isUnspecified, RawNet.isSiteLocal, RawNet.hash, RawNet.count, RawNet.toString, RawNet.supernet, pick_first,
      anyNetPlen, anyNetAddress, anyNetMask, anyNetHostmask, anyNetBroadcast, anyNetIsMulticast, anyNetIsPrivate,
      anyNetIsGlobal, anyNetIsReserved, anyNetIsLoopback, anyNetIsLinkLocal, anyNetIsUnspecified, anyNetIsSiteLocal,
      anyNetHash, anyNetCount, anyNetToString, anyNetSupernet, AnyAddr.raw, Tagged.of1, Tagged.of2, Tagged.isV4, Union.get1,
      Res.ok_bind, true_and, implies_true]
    refine ⟨?_, rfl, fun d p => ?_⟩
    · cases (fam4 c.le).broadcast n <;> rfl
    · cases (fam4 c.le).supernet n d p <;> rfl
  | v6 n =>
    simp -implicitDefEqProofs only [AnyNet.raw, RawNet.prefixlen, RawNet.address, RawNet.netmask, RawNet.hostmask, RawNet.broadcast,
      RawNet.isMulticast, RawNet.isPrivate, RawNet.isGlobal, RawNet.isReserved, RawNet.isLoopback, RawNet.isLinkLocal,
      RawNet.isUnspecified, RawNet.isSiteLocal, RawNet.hash, RawNet.count, RawNet.toString, RawNet.supernet, pick_second,
      anyNetPlen, anyNetAddress, anyNetMask, anyNetHostmask, anyNetBroadcast, anyNetIsMulticast, anyNetIsPrivate,
      anyNetIsGlobal, anyNetIsReserved, anyNetIsLoopback, anyNetIsLinkLocal, anyNetIsUnspecified, anyNetIsSiteLocal,
      anyNetHash, anyNetCount, anyNetToString, anyNetSupernet, AnyAddr.raw, Tagged.of1, Tagged.of2, Tagged.isV4, Union.get2,
      Res.ok_bind, true_and, implies_true]
    refine ⟨?_, rfl, fun d p => ?_⟩
    · cases (fam6 c).broadcast n <;> rfl
    · cases (fam6 c).supernet n d p <;> rfl

example := C70_network exCfg (AnyNet.v6 ex32).raw (.inr ⟨_, rfl⟩)

/-- C70: the version, the size and the members of a network, and the same for an address. -/
theorem C70_members :
    (∀ n : Net (List (BitVec 8)), RawNet.v4 (.of1 n) = .ok (some n) ∧ RawNet.v6 (.of1 n) = .ok none ∧
      RawNet.size (.of1 n) = .ok 4 ∧ (Tagged.of1 n : RawNet).isV4 = true ∧ (Tagged.of1 n : RawNet).isV6 = false) ∧
    (∀ n : Net V6, RawNet.v4 (.of2 n) = .ok none ∧ RawNet.v6 (.of2 n) = .ok (some n) ∧ RawNet.size (.of2 n) = .ok 16 ∧
      (Tagged.of2 n : RawNet).isV4 = false ∧ (Tagged.of2 n : RawNet).isV6 = true) ∧
    (∀ b : List (BitVec 8), RawAddr.v4 (.of1 b) = .ok (some b) ∧ RawAddr.v6 (.of1 b) = .ok none) ∧
    (∀ a : V6, RawAddr.v4 (.of2 a) = .ok none ∧ RawAddr.v6 (.of2 a) = .ok (some a)) :=
  ⟨fun _ => ⟨rfl, rfl, rfl, rfl, rfl⟩, fun _ => ⟨rfl, rfl, rfl, rfl, rfl⟩, fun _ => ⟨rfl, rfl⟩, fun _ => ⟨rfl, rfl⟩⟩

/-- C70: two networks, or a network and an address: `v4().value()` and `v6().value()` are never called on an empty
optional. -/
theorem C70_network_pair (c : Cfg) (x y : RawNet) (a : RawAddr) (hx : TagRight x) (hy : TagRight y) (ha : TagRight a) :
    ∃ (n o : AnyNet) (b : AnyAddr), x = n.raw ∧ y = o.raw ∧ a = b.raw ∧
      RawNet.contains c x a = anyNetContains c n b ∧ RawNet.overlaps c x y = anyNetOverlaps c n o ∧
      RawNet.subnetOf c x y = anyNetSubnetOf c n o ∧ RawNet.supernetOf c x y = anyNetSupernetOf c n o ∧
      RawNet.eq c x y = anyNetEq c n o ∧ RawNet.cmp c x y = anyNetCmp c n o ∧ RawNet.lt c x y = anyNetLt c n o := by
  obtain ⟨n, rfl⟩ := TagRight.net hx
  obtain ⟨o, rfl⟩ := TagRight.net hy
  obtain ⟨b, rfl⟩ := TagRight.addr ha
  refine ⟨n, o, b, rfl, rfl, rfl, ?_, ?_⟩
  · cases n <;> cases b <;>
      simp [RawNet.contains, anyNetContains, AnyNet.raw, AnyAddr.raw, Tagged.isV4, Union.get1, Union.get2, RawAddr.v4, RawAddr.v6]
  · cases n <;> cases o <;>
      simp only [RawNet.overlaps, RawNet.subnetOf, RawNet.supernetOf, RawNet.eq, RawNet.cmp, RawNet.lt, both_cases,
        threeWay_cases, less_cases, relation_cases, anyNetOverlaps, anyNetSubnetOf, anyNetSupernetOf, anyNetEq, anyNetCmp,
        anyNetLt, AnyNet.raw, and_self]

example : TagRight (AnyNet.v6 ex32).raw ∧ TagRight (AnyNet.v4 ex16).raw :=
  ⟨.inr ⟨_, rfl⟩, .inl ⟨_, rfl⟩⟩

/-- C70: the constructors and factories of networks. -/
theorem C70_network_factories (c : Cfg) :
    RawNet.default c = (do
      let n ← anyNetDefault c
      .ok n.raw) ∧
    (∀ n, (Tagged.of1 n : RawNet) = (AnyNet.v4 n).raw) ∧ (∀ n, (Tagged.of2 n : RawNet) = (AnyNet.v6 n).raw) ∧
    (∀ evs strict, RawNet.parse c evs strict = (do
      let n ← anyNetFromEvents c evs strict
      .ok n.raw)) ∧
    (∀ (a : AnyAddr) p strict, RawNet.fromAddress c a.raw p strict = (do
      let n ← anyNetFromAddress c a p strict
      .ok n.raw)) := by
  refine ⟨?_, fun _ => rfl, fun _ => rfl, fun evs strict => ?_, fun a p strict => ?_⟩
  · simp only [RawNet.default, anyNetDefault]
    cases (fam4 c.le).defaultNet <;> rfl
  · simp only [RawNet.parse, anyNetFromEvents]
    cases (fam4 c.le).parseNet evs strict with
    | ok n => rfl
    | ub => rfl
    | err e v => dsimp only; cases (fam6 c).parseNet evs strict <;> rfl
  · cases a with
    | v4 b =>
      have e : RawNet.fromAddress c (AnyAddr.v4 b).raw p strict = (do
          let n ← (fam4 c.le).fromAddress b p strict
          .ok (.of1 n)) := by
        simp [RawNet.fromAddress, AnyAddr.raw, Tagged.isV4, RawAddr.v4, Union.get1]
      rw [e, anyNetFromAddress]
      cases (fam4 c.le).fromAddress b p strict <;> rfl
    | v6 b =>
      have e : RawNet.fromAddress c (AnyAddr.v6 b).raw p strict = (do
          let n ← (fam6 c).fromAddress b p strict
          .ok (.of2 n)) := by
        simp [RawNet.fromAddress, AnyAddr.raw, Tagged.isV4, RawAddr.v6, Union.get2]
      rw [e, anyNetFromAddress]
      cases (fam6 c).fromAddress b p strict <;> rfl

/-! ### Iterators -/

section
variable {I4 V4 I6 V6 V : Type} (O : AnyItOps I4 V4 I6 V6 V)

/-- C70: the iterators of `hosts` and `subnets` have the right tag and element however they are created and moved. -/
theorem C70_iterator_states :
    (∀ i, IterRight O (RawIt.of4 O i)) ∧ (∀ i, IterRight O (RawIt.of6 O i)) ∧
    ∀ x, IterRight O x →
      (∀ n y, RawIt.add O x n = .ok y → IterRight O y) ∧ (∀ n y, RawIt.sub O x n = .ok y → IterRight O y) ∧
      (∀ y, RawIt.base O x = .ok y → IterRight O y) ∧ (∀ y, RawIt.reverse O x = .ok y → IterRight O y) := by
  refine ⟨fun i => .inl ⟨i, rfl⟩, fun i => .inr ⟨i, rfl⟩, fun x hx => ?_⟩
  rcases hx with ⟨i, rfl⟩ | ⟨i, rfl⟩
  · refine ⟨fun n y h => ?_, fun n y h => ?_, fun y h => ?_, fun y h => ?_⟩
    all_goals
      obtain ⟨a, ha, h⟩ := Res.bind_eq_ok.1 h
      cases ha
      obtain ⟨b, _, h⟩ := Res.bind_eq_ok.1 h
      cases h
      exact .inl ⟨b, rfl⟩
  · refine ⟨fun n y h => ?_, fun n y h => ?_, fun y h => ?_, fun y h => ?_⟩
    all_goals
      obtain ⟨a, ha, h⟩ := Res.bind_eq_ok.1 h
      cases ha
      obtain ⟨b, _, h⟩ := Res.bind_eq_ok.1 h
      cases h
      exact .inr ⟨b, rfl⟩

/-- C70: what such an iterator does is what the iterator it holds does. -/
theorem C70_iterator (x : RawIt I4 I6 V) (hx : IterRight O x) :
    ∃ a : AnyIt I4 I6 V, x = a.raw ∧ x.deref = AnyItOps.deref a ∧ (∀ n, RawIt.at_ O n x = O.at_ n a) ∧
      (∀ n, RawIt.add O x n = (do
        let r ← O.add a n
        .ok r.raw)) ∧
      (∀ n, RawIt.sub O x n = (do
        let r ← O.sub a n
        .ok r.raw)) ∧
      RawIt.base O x = (do
        let r ← O.base a
        .ok r.raw) ∧
      RawIt.reverse O x = (do
        let r ← O.reverse a
        .ok r.raw) := by
  rcases hx with ⟨i, rfl⟩ | ⟨i, rfl⟩
  · refine ⟨.v4 i (O.emb4 (O.o4.deref i)), rfl, rfl, fun n => rfl, fun n => ?_, fun n => ?_, ?_, ?_⟩
    · simp only [RawIt.add, AnyItOps.add, Union.get1, Res.ok_bind, if_pos]
      cases O.o4.add i (lo32 n) <;> rfl
    · simp only [RawIt.sub, AnyItOps.sub, Union.get1, Res.ok_bind, if_pos]
      cases O.o4.sub i (lo32 n) <;> rfl
    · simp only [RawIt.base, AnyItOps.base, Tagged.pick, Tagged.isV4, Union.get1, Res.ok_bind]
      cases O.o4.base i <;> rfl
    · simp only [RawIt.reverse, AnyItOps.reverse, Tagged.pick, Tagged.isV4, Union.get1, Res.ok_bind]
      cases O.o4.reverse i <;> rfl
  · refine ⟨.v6 i (O.emb6 (O.o6.deref i)), rfl, rfl, fun n => rfl, fun n => ?_, fun n => ?_, ?_, ?_⟩
    · simp only [RawIt.add, AnyItOps.add, Union.get2, Res.ok_bind]
      cases O.o6.add i n <;> rfl
    · simp only [RawIt.sub, AnyItOps.sub, Union.get2, Res.ok_bind]
      cases O.o6.sub i n <;> rfl
    · simp only [RawIt.base, AnyItOps.base, Tagged.pick, Tagged.isV4, Union.get2, Res.ok_bind]
      cases O.o6.base i <;> rfl
    · simp only [RawIt.reverse, AnyItOps.reverse, Tagged.pick, Tagged.isV4, Union.get2, Res.ok_bind]
      cases O.o6.reverse i <;> rfl

example := C70_iterator (anyHostsOps exCfg) (RawIt.of4 (anyHostsOps exCfg) ⟨[10, 0, 0, 1], 0x0a000001#32, 0⟩) (.inl ⟨_, rfl⟩)

/-- C70: two iterators. -/
theorem C70_iterator_pair (x y : RawIt I4 I6 V) (hx : IterRight O x) (hy : IterRight O y) :
    ∃ a b : AnyIt I4 I6 V, x = a.raw ∧ y = b.raw ∧ RawIt.uintDiff O x y = O.uintDiff a b ∧
      RawIt.diff O x y = .ok (O.diff a b) ∧ RawIt.eq O x y = O.eq a b ∧ RawIt.cmp O x y = O.cmp a b ∧
      RawIt.lt O x y = O.lt a b := by
  rcases hx with ⟨i, rfl⟩ | ⟨i, rfl⟩ <;> rcases hy with ⟨j, rfl⟩ | ⟨j, rfl⟩
  · exact ⟨.v4 i _, .v4 j _, rfl, rfl, rfl, rfl, rfl, rfl, rfl⟩
  · exact ⟨.v4 i _, .v6 j _, rfl, rfl, rfl, rfl, rfl, rfl, rfl⟩
  · exact ⟨.v6 i _, .v4 j _, rfl, rfl, rfl, rfl, rfl, rfl, rfl⟩
  · exact ⟨.v6 i _, .v6 j _, rfl, rfl, rfl, rfl, rfl, rfl, rfl⟩

example : IterRight (anyHostsOps exCfg) (RawIt.of4 (anyHostsOps exCfg) ⟨[10, 0, 0, 1], 0x0a000001#32, 0⟩) :=
  (C70_iterator_states _).1 _

end

end Ip
