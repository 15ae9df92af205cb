import Verif.Model.Class
import Verif.Spec.Class
import Verif.Lemmas.NetText
import Verif.Lemmas.NetSpec
/-
Lemmas on the registry tables.
-/
set_option autoImplicit false

namespace Ip
open Spec

section
variable {A U : Type} {F : Fam A U} {WF : A → Prop} {val : U → Nat}

/-- The text of a table entry is parsed to the network with first address `e.1` and prefix length `e.2`. -/
def Denotes (F : Fam A U) (WF : A → Prop) (text : List Char) (e : Nat × Nat) : Prop :=
  ∃ n, F.parseNet (readChars text) true = .ok n ∧ NetOk F WF n ∧ F.v n.addr = e.1 ∧ n.plen = e.2

/-- `x` is one of the addresses of the entry. -/
def inEntry (w : Nat) (e : Nat × Nat) (x : Nat) : Bool := decide (e.1 ≤ x ∧ x < e.1 + 2 ^ (w - e.2))

theorem textContains_eq (L : F.Law WF val) (t : List Char) (e : Nat × Nat) (h : Denotes F WF t e) (a : A) (ha : WF a) :
    F.textContains t a = .ok (inEntry F.maxPrefix e (F.v a)) := by
  obtain ⟨n, h1, h2, h3, h4⟩ := h
  rw [Fam.textContains, h1, Res.ok_bind, contains_iff L n h2 a ha, h3, h4]
  rfl

theorem tableContains_eq (L : F.Law WF val) : ∀ (ts : List (List Char)) (es : List (Nat × Nat)),
    List.Forall₂ (Denotes F WF) ts es → ∀ (a : A), WF a →
    F.tableContains ts a = .ok (es.any fun e => inEntry F.maxPrefix e (F.v a))
  | _, _, .nil, _, _ => rfl
  | t :: ts, e :: es, .cons h hs, a, ha => by
    rw [Fam.tableContains, textContains_eq L t e h a ha, Res.ok_bind, tableContains_eq L ts es hs a ha, List.any_cons]
    cases inEntry F.maxPrefix e (F.v a) <;> rfl

theorem textContainsBoth_eq (L : F.Law WF val) (t : List Char) (e : Nat × Nat) (h : Denotes F WF t e) (a b : A)
    (ha : WF a) (hb : WF b) :
    F.textContainsBoth t a b = .ok (inEntry F.maxPrefix e (F.v a) && inEntry F.maxPrefix e (F.v b)) := by
  rw [Fam.textContainsBoth, textContains_eq L t e h a ha, Res.ok_bind, textContains_eq L t e h b hb]
  cases inEntry F.maxPrefix e (F.v a) <;> rfl

theorem tableContainsBoth_eq (L : F.Law WF val) : ∀ (ts : List (List Char)) (es : List (Nat × Nat)),
    List.Forall₂ (Denotes F WF) ts es → ∀ (a b : A), WF a → WF b →
    F.tableContainsBoth ts a b =
      .ok (es.any fun e => inEntry F.maxPrefix e (F.v a) && inEntry F.maxPrefix e (F.v b))
  | _, _, .nil, _, _, _, _ => rfl
  | t :: ts, e :: es, .cons h hs, a, b, ha, hb => by
    rw [Fam.tableContainsBoth, textContainsBoth_eq L t e h a b ha hb, Res.ok_bind,
      tableContainsBoth_eq L ts es hs a b ha hb, List.any_cons]
    cases inEntry F.maxPrefix e (F.v a) && inEntry F.maxPrefix e (F.v b) <;> rfl

end

theorem v4_denotes (t : List Char) (n : Net (List (BitVec 8))) (e : Nat × Nat)
    (h : (fam4 true).parseNet (readChars t) true = .ok n) (he : (beValue n.addr, n.plen) = e) :
    Denotes (fam4 true) WF4 t e :=
  ⟨n, h, parseNet_ok fam4Law fam4_parseArray_ok fam4_parseNetmask_ok _ _ n h, congrArg Prod.fst he, congrArg Prod.snd he⟩

theorem v6Parse_plain (spaces : Bool) (M : Nat) (s : List Char) (h0 : s ≠ []) (h : ∀ c ∈ s, c ≠ '%')
    (b : List (BitVec 8)) (hb : parseAddr s = .ok b) : v6Parse spaces M s = .ok ⟨b, emptyScope M⟩ := by
  rw [v6Parse, v6FromEvents, if_neg (by simpa [readChars] using h0), splitScope_none _ _ _ h, Res.ok_bind, hb, Res.ok_bind]
  rfl

theorem v6_denotes (c : Cfg) (hc : c.le = true) (t a m : List Char) (b mb : List (BitVec 8)) (p cv : Nat)
    (ht : t = a ++ '/' :: m) (h1 : a ≠ [] ∧ (∀ c ∈ a, c ≠ '%') ∧ (∀ c ∈ a, c ≠ '\x00') ∧ '/' ∉ a ∧ a.length ≤ 41)
    (h2 : m ≠ [] ∧ '/' ∉ m) (hb : parseAddr a = .ok b) (hm : v6ParseNetmask (readChars m) = .ok (mb, p, cv))
    (h4 : beValue b % 2 ^ (128 - p) = 0) (hp : p ≤ 128) :
    Denotes (fam6 c) (V6.WF c.M) t (beValue b, p) := by
  have L := fam6Law c hc
  obtain ⟨g1, g2, g3, g4, g5⟩ := h1
  obtain ⟨q1, q2⟩ := parts_of_slash a m g4
  rw [← ht] at q1 q2
  have hx : (fam6 c).parseArray (addrArray (fam6 c) (addrPart t)) = .ok ⟨b, emptyScope c.M⟩ := by
    rw [q1, v6_parseArray c a (by omega) g3]
    exact v6Parse_plain _ _ a g1 g2 b hb
  have hwf := fam6_parseArray_ok c _ _ hx
  obtain ⟨_, k2, k3⟩ := v6ParseNetmask_ok _ _ _ _ hm
  have hr := parseNet_reading L t (by rw [q1]; show a.length ≤ 41 + c.M; omega) true ⟨b, emptyScope c.M⟩ hx mb p cv
    (.inr ⟨m, q2, h2.1, h2.2, by
      show (v6ParseNetmask (readChars m) >>= _) = _
      rw [hm]; rfl⟩) (by rw [k2]; rfl) k3 hp
  obtain ⟨m', b', f1, f2, f3, f4, f5⟩ := fromAddress_eq L ⟨b, emptyScope c.M⟩ hwf p hp true
  have h4' : (fam6 c).v ⟨b, emptyScope c.M⟩ % 2 ^ ((fam6 c).maxPrefix - p) = 0 := h4
  rw [f5, if_pos h4'] at hr
  refine ⟨_, hr, ?_, rfl, rfl⟩
  exact ⟨hwf, hp, ⟨m', rfl, f1, f2⟩, h4⟩

theorem v6_denotes' (c : Cfg) (hc : c.le = true) (t a m : List Char) (b mb : List (BitVec 8)) (p : Nat) (e : Nat × Nat)
    (h : t = a ++ '/' :: m ∧ (a ≠ [] ∧ (∀ c ∈ a, c ≠ '%') ∧ (∀ c ∈ a, c ≠ '\x00') ∧ '/' ∉ a ∧ a.length ≤ 41) ∧
      (m ≠ [] ∧ '/' ∉ m) ∧ parseAddr a = .ok b ∧ v6ParseNetmask (readChars m) = .ok (mb, p, 0) ∧
      beValue b % 2 ^ (128 - p) = 0 ∧ p ≤ 128 ∧ (beValue b, p) = e) :
    Denotes (fam6 c) (V6.WF c.M) t e :=
  let ⟨ht, h1, h2, hb, hm, h4, hp, he⟩ := h
  he ▸ v6_denotes c hc t a m b mb p 0 ht h1 h2 hb hm h4 hp

/-- The entries of `v4PrivateTexts`. -/
def v4PrivateEntries : List (Nat × Nat) :=
  [(quad 0 0 0 0, 8),
   (quad 10 0 0 0, 8),
   (quad 127 0 0 0, 8),
   (quad 169 254 0 0, 16),
   (quad 172 16 0 0, 12),
   (quad 192 0 0 0, 29),
   (quad 192 0 0 170, 31),
   (quad 192 0 2 0, 24),
   (quad 192 168 0 0, 16),
   (quad 198 18 0 0, 15),
   (quad 198 51 100 0, 24),
   (quad 203 0 113 0, 24),
   (quad 240 0 0 0, 4),
   (quad 255 255 255 255, 32)]

theorem v4Private_denotes : List.Forall₂ (Denotes (fam4 true) WF4) v4PrivateTexts v4PrivateEntries :=
  .cons (v4_denotes _ ⟨[0, 0, 0, 0], [255, 0, 0, 0], 8⟩ _ (by decide +kernel) (by decide)) <|
  .cons (v4_denotes _ ⟨[10, 0, 0, 0], [255, 0, 0, 0], 8⟩ _ (by decide +kernel) (by decide)) <|
  .cons (v4_denotes _ ⟨[127, 0, 0, 0], [255, 0, 0, 0], 8⟩ _ (by decide +kernel) (by decide)) <|
  .cons (v4_denotes _ ⟨[169, 254, 0, 0], [255, 255, 0, 0], 16⟩ _ (by decide +kernel) (by decide)) <|
  .cons (v4_denotes _ ⟨[172, 16, 0, 0], [255, 240, 0, 0], 12⟩ _ (by decide +kernel) (by decide)) <|
  .cons (v4_denotes _ ⟨[192, 0, 0, 0], [255, 255, 255, 248], 29⟩ _ (by decide +kernel) (by decide)) <|
  .cons (v4_denotes _ ⟨[192, 0, 0, 170], [255, 255, 255, 254], 31⟩ _ (by decide +kernel) (by decide)) <|
  .cons (v4_denotes _ ⟨[192, 0, 2, 0], [255, 255, 255, 0], 24⟩ _ (by decide +kernel) (by decide)) <|
  .cons (v4_denotes _ ⟨[192, 168, 0, 0], [255, 255, 0, 0], 16⟩ _ (by decide +kernel) (by decide)) <|
  .cons (v4_denotes _ ⟨[198, 18, 0, 0], [255, 254, 0, 0], 15⟩ _ (by decide +kernel) (by decide)) <|
  .cons (v4_denotes _ ⟨[198, 51, 100, 0], [255, 255, 255, 0], 24⟩ _ (by decide +kernel) (by decide)) <|
  .cons (v4_denotes _ ⟨[203, 0, 113, 0], [255, 255, 255, 0], 24⟩ _ (by decide +kernel) (by decide)) <|
  .cons (v4_denotes _ ⟨[240, 0, 0, 0], [240, 0, 0, 0], 4⟩ _ (by decide +kernel) (by decide)) <|
  .cons (v4_denotes _ ⟨[255, 255, 255, 255], [255, 255, 255, 255], 32⟩ _ (by decide +kernel) (by decide)) <|
  .nil

/-- The entries of `v6PrivateTexts`. -/
def v6PrivateEntries : List (Nat × Nat) :=
  [(octo 0 0 0 0 0 0 0 0x1, 128),
   (octo 0 0 0 0 0 0 0 0, 128),
   (octo 0 0 0 0 0 0xffff 0 0, 96),
   (octo 0x100 0 0 0 0 0 0 0, 64),
   (octo 0x2001 0 0 0 0 0 0 0, 23),
   (octo 0x2001 0x2 0 0 0 0 0 0, 48),
   (octo 0x2001 0xdb8 0 0 0 0 0 0, 32),
   (octo 0x2001 0x10 0 0 0 0 0 0, 28),
   (octo 0xfc00 0 0 0 0 0 0 0, 7),
   (octo 0xfe80 0 0 0 0 0 0 0, 10)]

theorem v6Private_denotes (c : Cfg) (hc : c.le = true) :
    List.Forall₂ (Denotes (fam6 c) (V6.WF c.M)) v6PrivateTexts v6PrivateEntries :=
  .cons (v6_denotes' c hc _ "::1".toList "128".toList
    [0, 0, 0, 0, 0, 0, 0, 0, 0, 0, 0, 0, 0, 0, 0, 1]
    [0xff, 0xff, 0xff, 0xff, 0xff, 0xff, 0xff, 0xff, 0xff, 0xff, 0xff, 0xff, 0xff, 0xff, 0xff, 0xff] 128 _ (by decide +kernel)) <|
  .cons (v6_denotes' c hc _ "::".toList "128".toList
    [0, 0, 0, 0, 0, 0, 0, 0, 0, 0, 0, 0, 0, 0, 0, 0]
    [0xff, 0xff, 0xff, 0xff, 0xff, 0xff, 0xff, 0xff, 0xff, 0xff, 0xff, 0xff, 0xff, 0xff, 0xff, 0xff] 128 _ (by decide +kernel)) <|
  .cons (v6_denotes' c hc _ "::ffff:0:0".toList "96".toList
    [0, 0, 0, 0, 0, 0, 0, 0, 0, 0, 0xff, 0xff, 0, 0, 0, 0]
    [0xff, 0xff, 0xff, 0xff, 0xff, 0xff, 0xff, 0xff, 0xff, 0xff, 0xff, 0xff, 0, 0, 0, 0] 96 _ (by decide +kernel)) <|
  .cons (v6_denotes' c hc _ "100::".toList "64".toList
    [1, 0, 0, 0, 0, 0, 0, 0, 0, 0, 0, 0, 0, 0, 0, 0]
    [0xff, 0xff, 0xff, 0xff, 0xff, 0xff, 0xff, 0xff, 0, 0, 0, 0, 0, 0, 0, 0] 64 _ (by decide +kernel)) <|
  .cons (v6_denotes' c hc _ "2001::".toList "23".toList
    [0x20, 1, 0, 0, 0, 0, 0, 0, 0, 0, 0, 0, 0, 0, 0, 0]
    [0xff, 0xff, 0xfe, 0, 0, 0, 0, 0, 0, 0, 0, 0, 0, 0, 0, 0] 23 _ (by decide +kernel)) <|
  .cons (v6_denotes' c hc _ "2001:2::".toList "48".toList
    [0x20, 1, 0, 2, 0, 0, 0, 0, 0, 0, 0, 0, 0, 0, 0, 0]
    [0xff, 0xff, 0xff, 0xff, 0xff, 0xff, 0, 0, 0, 0, 0, 0, 0, 0, 0, 0] 48 _ (by decide +kernel)) <|
  .cons (v6_denotes' c hc _ "2001:db8::".toList "32".toList
    [0x20, 1, 0xd, 0xb8, 0, 0, 0, 0, 0, 0, 0, 0, 0, 0, 0, 0]
    [0xff, 0xff, 0xff, 0xff, 0, 0, 0, 0, 0, 0, 0, 0, 0, 0, 0, 0] 32 _ (by decide +kernel)) <|
  .cons (v6_denotes' c hc _ "2001:10::".toList "28".toList
    [0x20, 1, 0, 0x10, 0, 0, 0, 0, 0, 0, 0, 0, 0, 0, 0, 0]
    [0xff, 0xff, 0xff, 0xf0, 0, 0, 0, 0, 0, 0, 0, 0, 0, 0, 0, 0] 28 _ (by decide +kernel)) <|
  .cons (v6_denotes' c hc _ "fc00::".toList "7".toList
    [0xfc, 0, 0, 0, 0, 0, 0, 0, 0, 0, 0, 0, 0, 0, 0, 0]
    [0xfe, 0, 0, 0, 0, 0, 0, 0, 0, 0, 0, 0, 0, 0, 0, 0] 7 _ (by decide +kernel)) <|
  .cons (v6_denotes' c hc _ "fe80::".toList "10".toList
    [0xfe, 0x80, 0, 0, 0, 0, 0, 0, 0, 0, 0, 0, 0, 0, 0, 0]
    [0xff, 0xc0, 0, 0, 0, 0, 0, 0, 0, 0, 0, 0, 0, 0, 0, 0] 10 _ (by decide +kernel)) <|
  .nil

/-- The entries of `v6ReservedTexts`. -/
def v6ReservedEntries : List (Nat × Nat) :=
  [(octo 0 0 0 0 0 0 0 0, 8),
   (octo 0x100 0 0 0 0 0 0 0, 8),
   (octo 0x200 0 0 0 0 0 0 0, 7),
   (octo 0x400 0 0 0 0 0 0 0, 6),
   (octo 0x800 0 0 0 0 0 0 0, 5),
   (octo 0x1000 0 0 0 0 0 0 0, 4),
   (octo 0x4000 0 0 0 0 0 0 0, 3),
   (octo 0x6000 0 0 0 0 0 0 0, 3),
   (octo 0x8000 0 0 0 0 0 0 0, 3),
   (octo 0xa000 0 0 0 0 0 0 0, 3),
   (octo 0xc000 0 0 0 0 0 0 0, 3),
   (octo 0xe000 0 0 0 0 0 0 0, 4),
   (octo 0xf000 0 0 0 0 0 0 0, 5),
   (octo 0xf800 0 0 0 0 0 0 0, 6),
   (octo 0xfe00 0 0 0 0 0 0 0, 9)]

theorem v6Reserved_denotes (c : Cfg) (hc : c.le = true) :
    List.Forall₂ (Denotes (fam6 c) (V6.WF c.M)) v6ReservedTexts v6ReservedEntries :=
  .cons (v6_denotes' c hc _ "::".toList "8".toList
    [0, 0, 0, 0, 0, 0, 0, 0, 0, 0, 0, 0, 0, 0, 0, 0]
    [0xff, 0, 0, 0, 0, 0, 0, 0, 0, 0, 0, 0, 0, 0, 0, 0] 8 _ (by decide +kernel)) <|
  .cons (v6_denotes' c hc _ "100::".toList "8".toList
    [1, 0, 0, 0, 0, 0, 0, 0, 0, 0, 0, 0, 0, 0, 0, 0]
    [0xff, 0, 0, 0, 0, 0, 0, 0, 0, 0, 0, 0, 0, 0, 0, 0] 8 _ (by decide +kernel)) <|
  .cons (v6_denotes' c hc _ "200::".toList "7".toList
    [2, 0, 0, 0, 0, 0, 0, 0, 0, 0, 0, 0, 0, 0, 0, 0]
    [0xfe, 0, 0, 0, 0, 0, 0, 0, 0, 0, 0, 0, 0, 0, 0, 0] 7 _ (by decide +kernel)) <|
  .cons (v6_denotes' c hc _ "400::".toList "6".toList
    [4, 0, 0, 0, 0, 0, 0, 0, 0, 0, 0, 0, 0, 0, 0, 0]
    [0xfc, 0, 0, 0, 0, 0, 0, 0, 0, 0, 0, 0, 0, 0, 0, 0] 6 _ (by decide +kernel)) <|
  .cons (v6_denotes' c hc _ "800::".toList "5".toList
    [8, 0, 0, 0, 0, 0, 0, 0, 0, 0, 0, 0, 0, 0, 0, 0]
    [0xf8, 0, 0, 0, 0, 0, 0, 0, 0, 0, 0, 0, 0, 0, 0, 0] 5 _ (by decide +kernel)) <|
  .cons (v6_denotes' c hc _ "1000::".toList "4".toList
    [0x10, 0, 0, 0, 0, 0, 0, 0, 0, 0, 0, 0, 0, 0, 0, 0]
    [0xf0, 0, 0, 0, 0, 0, 0, 0, 0, 0, 0, 0, 0, 0, 0, 0] 4 _ (by decide +kernel)) <|
  .cons (v6_denotes' c hc _ "4000::".toList "3".toList
    [0x40, 0, 0, 0, 0, 0, 0, 0, 0, 0, 0, 0, 0, 0, 0, 0]
    [0xe0, 0, 0, 0, 0, 0, 0, 0, 0, 0, 0, 0, 0, 0, 0, 0] 3 _ (by decide +kernel)) <|
  .cons (v6_denotes' c hc _ "6000::".toList "3".toList
    [0x60, 0, 0, 0, 0, 0, 0, 0, 0, 0, 0, 0, 0, 0, 0, 0]
    [0xe0, 0, 0, 0, 0, 0, 0, 0, 0, 0, 0, 0, 0, 0, 0, 0] 3 _ (by decide +kernel)) <|
  .cons (v6_denotes' c hc _ "8000::".toList "3".toList
    [0x80, 0, 0, 0, 0, 0, 0, 0, 0, 0, 0, 0, 0, 0, 0, 0]
    [0xe0, 0, 0, 0, 0, 0, 0, 0, 0, 0, 0, 0, 0, 0, 0, 0] 3 _ (by decide +kernel)) <|
  .cons (v6_denotes' c hc _ "A000::".toList "3".toList
    [0xa0, 0, 0, 0, 0, 0, 0, 0, 0, 0, 0, 0, 0, 0, 0, 0]
    [0xe0, 0, 0, 0, 0, 0, 0, 0, 0, 0, 0, 0, 0, 0, 0, 0] 3 _ (by decide +kernel)) <|
  .cons (v6_denotes' c hc _ "C000::".toList "3".toList
    [0xc0, 0, 0, 0, 0, 0, 0, 0, 0, 0, 0, 0, 0, 0, 0, 0]
    [0xe0, 0, 0, 0, 0, 0, 0, 0, 0, 0, 0, 0, 0, 0, 0, 0] 3 _ (by decide +kernel)) <|
  .cons (v6_denotes' c hc _ "E000::".toList "4".toList
    [0xe0, 0, 0, 0, 0, 0, 0, 0, 0, 0, 0, 0, 0, 0, 0, 0]
    [0xf0, 0, 0, 0, 0, 0, 0, 0, 0, 0, 0, 0, 0, 0, 0, 0] 4 _ (by decide +kernel)) <|
  .cons (v6_denotes' c hc _ "F000::".toList "5".toList
    [0xf0, 0, 0, 0, 0, 0, 0, 0, 0, 0, 0, 0, 0, 0, 0, 0]
    [0xf8, 0, 0, 0, 0, 0, 0, 0, 0, 0, 0, 0, 0, 0, 0, 0] 5 _ (by decide +kernel)) <|
  .cons (v6_denotes' c hc _ "F800::".toList "6".toList
    [0xf8, 0, 0, 0, 0, 0, 0, 0, 0, 0, 0, 0, 0, 0, 0, 0]
    [0xfc, 0, 0, 0, 0, 0, 0, 0, 0, 0, 0, 0, 0, 0, 0, 0] 6 _ (by decide +kernel)) <|
  .cons (v6_denotes' c hc _ "FE00::".toList "9".toList
    [0xfe, 0, 0, 0, 0, 0, 0, 0, 0, 0, 0, 0, 0, 0, 0, 0]
    [0xff, 0x80, 0, 0, 0, 0, 0, 0, 0, 0, 0, 0, 0, 0, 0, 0] 9 _ (by decide +kernel)) <|
  .nil

theorem v4Public_denotes : Denotes (fam4 true) WF4 v4PublicText (quad 100 64 0 0, 10) :=
  v4_denotes _ ⟨[100, 64, 0, 0], [255, 192, 0, 0], 10⟩ _ (by decide +kernel) (by decide)

theorem v4Reserved_denotes : Denotes (fam4 true) WF4 v4ReservedText (quad 240 0 0 0, 4) :=
  v4_denotes _ ⟨[240, 0, 0, 0], [240, 0, 0, 0], 4⟩ _ (by decide +kernel) (by decide)

theorem v4Multicast_denotes : Denotes (fam4 true) WF4 v4MulticastText (quad 224 0 0 0, 4) :=
  v4_denotes _ ⟨[224, 0, 0, 0], [240, 0, 0, 0], 4⟩ _ (by decide +kernel) (by decide)

theorem v4Loopback_denotes : Denotes (fam4 true) WF4 v4LoopbackText (quad 127 0 0 0, 8) :=
  v4_denotes _ ⟨[127, 0, 0, 0], [255, 0, 0, 0], 8⟩ _ (by decide +kernel) (by decide)

theorem v4LinkLocal_denotes : Denotes (fam4 true) WF4 v4LinkLocalText (quad 169 254 0 0, 16) :=
  v4_denotes _ ⟨[169, 254, 0, 0], [255, 255, 0, 0], 16⟩ _ (by decide +kernel) (by decide)

theorem v6Multicast_denotes (c : Cfg) (hc : c.le = true) : Denotes (fam6 c) (V6.WF c.M) v6MulticastText (octo 0xff00 0 0 0 0 0 0 0, 8) :=
  v6_denotes' c hc _ "ff00::".toList "8".toList
    [0xff, 0, 0, 0, 0, 0, 0, 0, 0, 0, 0, 0, 0, 0, 0, 0]
    [0xff, 0, 0, 0, 0, 0, 0, 0, 0, 0, 0, 0, 0, 0, 0, 0] 8 _ (by decide +kernel)

theorem v6LinkLocal_denotes (c : Cfg) (hc : c.le = true) : Denotes (fam6 c) (V6.WF c.M) v6LinkLocalText (octo 0xfe80 0 0 0 0 0 0 0, 10) :=
  v6_denotes' c hc _ "fe80::".toList "10".toList
    [0xfe, 0x80, 0, 0, 0, 0, 0, 0, 0, 0, 0, 0, 0, 0, 0, 0]
    [0xff, 0xc0, 0, 0, 0, 0, 0, 0, 0, 0, 0, 0, 0, 0, 0, 0] 10 _ (by decide +kernel)

theorem v6SiteLocal_denotes (c : Cfg) (hc : c.le = true) : Denotes (fam6 c) (V6.WF c.M) v6SiteLocalText (octo 0xfec0 0 0 0 0 0 0 0, 10) :=
  v6_denotes' c hc _ "fec0::".toList "10".toList
    [0xfe, 0xc0, 0, 0, 0, 0, 0, 0, 0, 0, 0, 0, 0, 0, 0, 0]
    [0xff, 0xc0, 0, 0, 0, 0, 0, 0, 0, 0, 0, 0, 0, 0, 0, 0] 10 _ (by decide +kernel)

end Ip
