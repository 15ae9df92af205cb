import Verif.Spec.Addr
import Verif.Lemmas.V6Uint
import Verif.Lemmas.V6Text
import Verif.Lemmas.Bytes
import Verif.Lemmas.U128Text
set_option autoImplicit false

namespace Ip
open Spec

theorem lexCmp_lt_iff (val : Char → Int) (hv : ∀ x y, val x = val y → x = y) :
    ∀ a b, FStr.lexCmp val a b < 0 ↔ ScopeLt val a b
  | [], [] => by simp [FStr.lexCmp, ScopeLt]
  | [], y :: b => by simp [FStr.lexCmp, ScopeLt]
  | x :: a, [] => by simp [FStr.lexCmp, ScopeLt]
  | x :: a, y :: b => by
    have ih := lexCmp_lt_iff val hv a b
    by_cases hxy : x = y
    · subst hxy
      simp only [FStr.lexCmp, ne_eq, not_true_eq_false, if_false, ih]
      constructor
      · rintro (⟨z, r, h⟩ | ⟨p, u, v, r, r', h1, h2, h3⟩)
        · exact Or.inl ⟨z, r, by rw [h]; rfl⟩
        · exact Or.inr ⟨x :: p, u, v, r, r', by rw [h1]; rfl, by rw [h2]; rfl, h3⟩
      · rintro (⟨z, r, h⟩ | ⟨p, u, v, r, r', h1, h2, h3⟩)
        · exact Or.inl ⟨z, r, by simpa using h⟩
        · cases p with
          | nil =>
            simp only [List.nil_append, List.cons.injEq] at h1 h2
            obtain ⟨rfl, rfl⟩ := h1
            obtain ⟨rfl, rfl⟩ := h2
            omega
          | cons q p =>
            simp only [List.cons_append, List.cons.injEq] at h1 h2
            exact Or.inr ⟨p, u, v, r, r', h1.2, h2.2, h3⟩
    · simp only [FStr.lexCmp, ne_eq, hxy, not_false_eq_true, if_true]
      constructor
      · intro h
        exact Or.inr ⟨[], x, y, a, b, rfl, rfl, by omega⟩
      · rintro (⟨z, r, h⟩ | ⟨p, u, v, r, r', h1, h2, h3⟩)
        · simp only [List.cons_append, List.cons.injEq] at h
          exact absurd h.1.symm hxy
        · cases p with
          | nil =>
            simp only [List.nil_append, List.cons.injEq] at h1 h2
            obtain ⟨rfl, rfl⟩ := h1
            obtain ⟨rfl, rfl⟩ := h2
            omega
          | cons q p =>
            simp only [List.cons_append, List.cons.injEq] at h1 h2
            exact absurd (h1.1.trans h2.1.symm) hxy

theorem beValue_append (a b : List (BitVec 8)) :
    beValue (a ++ b) = beValue a * 256 ^ b.length + beValue b := by
  induction a with
  | nil => simp [beValue]
  | cons x a ih =>
    simp only [List.cons_append, beValue, ih, List.length_append, Nat.pow_add, Nat.add_mul, Nat.mul_assoc]
    omega

theorem beValue_div (a b : List (BitVec 8)) : beValue (a ++ b) / 256 ^ b.length = beValue a := by
  have := beValue_lt b
  rw [beValue_append, Nat.mul_comm, Nat.mul_add_div (Nat.pos_of_neZero _), Nat.div_eq_of_lt this, Nat.add_zero]

theorem beValue_mod (a b : List (BitVec 8)) : beValue (a ++ b) % 256 ^ b.length = beValue b := by
  have := beValue_lt b
  rw [beValue_append, Nat.mul_comm, Nat.mul_add_mod, Nat.mod_eq_of_lt this]

theorem bv8_eq {a b : BitVec 8} : a = b ↔ a.toNat = b.toNat := BitVec.toNat_inj.symm

/-- The loop of `set_scope_id` on a prefix that fits. -/
theorem setScopeLoop_eq (spaces : Bool) (n : Nat) : ∀ (z w : List Char), w.length + z.length ≤ n →
    ((∀ c ∈ z, invalidScopeSymbol spaces c = false) ∧
      setScopeLoop spaces (readChars z) w.length (w ++ List.replicate (n - w.length) '\x00') =
        .ok ((w ++ z) ++ List.replicate (n - (w ++ z).length) '\x00')) ∨
    ((¬ ∀ c ∈ z, invalidScopeSymbol spaces c = false) ∧
      setScopeLoop spaces (readChars z) w.length (w ++ List.replicate (n - w.length) '\x00') =
        .err .invalid_scope_id 0)
  | [], w, _ => by left; simp [readChars, setScopeLoop]
  | c :: z, w, h => by
    simp only [List.length_cons] at h
    by_cases hc : invalidScopeSymbol spaces c = true
    · right
      refine ⟨fun h' => by have := h' c (by simp); simp [this] at hc, ?_⟩
      simp [readChars, setScopeLoop, hc]
    · simp only [Bool.not_eq_true] at hc
      have ih := setScopeLoop_eq spaces n z (w ++ [c]) (by simp; omega)
      have e : setScopeLoop spaces (readChars (c :: z)) w.length (w ++ List.replicate (n - w.length) '\x00') =
          setScopeLoop spaces (readChars z) (w ++ [c]).length ((w ++ [c]) ++ List.replicate (n - (w ++ [c]).length) '\x00') := by
        rw [show n - w.length = (n - (w ++ [c]).length) + 1 by simp; omega, List.replicate_succ]
        simp only [readChars, List.map_cons, setScopeLoop, hc, Bool.false_eq_true, if_false]
        rw [wr_append _ _ _ _ _ rfl, Res.ok_bind]
        simp
      rw [e]
      rcases ih with ⟨h1, h2⟩ | ⟨h1, h2⟩
      · left
        refine ⟨fun d hd => ?_, by rw [h2]; simp⟩
        rcases List.mem_cons.1 hd with rfl | hd
        · exact hc
        · exact h1 d hd
      · right
        exact ⟨fun h' => h1 (fun d hd => h' d (by simp [hd])), h2⟩

theorem setScopeLoop_safe (spaces : Bool) : ∀ (evs : List Ev) (i : Nat) (str : List Char),
    i + evs.length ≤ str.length → setScopeLoop spaces evs i str ≠ .ub ∧
      ∀ s, setScopeLoop spaces evs i str = .ok s → s.length = str.length ∧
        ((∀ c ∈ str, c = '\x00' ∨ invalidScopeSymbol spaces c = false) →
          ∀ c ∈ s, c = '\x00' ∨ invalidScopeSymbol spaces c = false)
  | [], i, str, _ => by
    simp only [setScopeLoop]
    exact ⟨by simp, by rintro _ ⟨⟩; exact ⟨rfl, id⟩⟩
  | .bad _ _ :: _, i, str, _ => by simp [setScopeLoop]
  | .ch c :: rest, i, str, h => by
    simp only [List.length_cons] at h
    unfold setScopeLoop
    split
    · simp
    · rename_i hc
      rw [wr_of_lt _ _ _ (by omega), Res.ok_bind]
      obtain ⟨h1, h2⟩ := setScopeLoop_safe spaces rest (i + 1) (str.set i c) (by simp; omega)
      refine ⟨h1, fun s hs => ?_⟩
      obtain ⟨h3, h4⟩ := h2 s hs
      refine ⟨by simpa using h3, fun h5 => h4 (fun d hd => ?_)⟩
      rcases List.mem_or_eq_of_mem_set hd with hd | rfl
      · exact h5 d hd
      · exact Or.inr (by simpa using hc)

theorem scopeValueLoop_eq (s : FStr) (hs : s.WF) :
    ∀ (fuel i : Nat) (v : BitVec 32), i ≤ s.length → s.length < fuel + i →
    (∃ ds, DigitText 10 (s.contents.drop i) ds ∧
      scopeValueLoop s fuel i v = .ok (some (BitVec.ofNat 32 (ds.foldl (fun acc d => acc * 10 + d) v.toNat)))) ∨
    ((¬ ∃ ds, DigitText 10 (s.contents.drop i) ds) ∧ scopeValueLoop s fuel i v = .ok none) := by
  intro fuel
  induction fuel with
  | zero => intro i v h1 h2; omega
  | succ fuel ih =>
    intro i v h1 h2
    unfold scopeValueLoop
    split
    · rename_i hi
      obtain ⟨c, hc, hd⟩ := FStr.contents_drop s hs i hi
      rw [hc, hd, Res.ok_bind]
      split
      · rename_i hdig
        simp only [show '0'.toNat = 48 from rfl, show '9'.toNat = 57 from rfl] at hdig ⊢
        have hmem : (c, c.toNat - 48) ∈ digitChars := by
          have : c = Char.ofNat c.toNat := by simp
          rw [this]
          simp only [show (Char.ofNat c.toNat).toNat = c.toNat by simp]
          generalize c.toNat = n at hdig
          obtain ⟨ha, hb⟩ := hdig
          interval_cases n <;> decide
        have huniq : ∀ d, (c, d) ∈ digitChars → d = c.toNat - 48 := by
          intro d hd'
          simp only [digitChars, List.mem_cons, Prod.mk.injEq, List.mem_nil_iff, or_false] at hd'
          rcases hd' with h | h | h | h | h | h | h | h | h | h | h | h | h | h | h | h | h | h | h | h | h | h
          all_goals
            obtain ⟨rfl, rfl⟩ := h
            revert hdig; decide
        rcases ih (i + 1) (v * 10#32 + BitVec.ofNat 32 (c.toNat - 48)) (by omega) (by omega) with
          ⟨ds, e1, e2⟩ | ⟨e1, e2⟩
        · left
          refine ⟨(c.toNat - 48) :: ds, ⟨hmem, by omega, e1⟩, ?_⟩
          rw [e2, List.foldl_cons]
          congr 2
          apply BitVec.eq_of_toNat_eq
          simp only [BitVec.toNat_ofNat, BitVec.toNat_add, BitVec.toNat_mul]
          have key : ∀ (ds : List Nat) (a b : Nat), a % 2 ^ 32 = b % 2 ^ 32 →
              (ds.foldl (fun acc d => acc * 10 + d) a) % 2 ^ 32 = (ds.foldl (fun acc d => acc * 10 + d) b) % 2 ^ 32 := by
            intro ds
            induction ds with
            | nil => intro a b h; exact h
            | cons d ds ih => intro a b h; exact ih _ _ (by show (a * 10 + d) % 2 ^ 32 = (b * 10 + d) % 2 ^ 32; omega)
          apply key
          omega
        · right
          refine ⟨?_, e2⟩
          rintro ⟨ds, h⟩
          match ds, h with
          | [], h => exact h
          | d :: ds, h => exact e1 ⟨ds, h.2.2⟩
      · rename_i hdig
        right
        refine ⟨?_, rfl⟩
        rintro ⟨ds, h⟩
        match ds, h with
        | [], h => exact h
        | d :: ds, h =>
          obtain ⟨h1, h2, _⟩ := h
          apply hdig
          simp only [digitChars, List.mem_cons, Prod.mk.injEq, List.mem_nil_iff, or_false] at h1
          rcases h1 with h | h | h | h | h | h | h | h | h | h | h | h | h | h | h | h | h | h | h | h | h | h
          all_goals
            obtain ⟨rfl, rfl⟩ := h
            revert h2; decide
    · left
      have : s.contents.drop i = [] := by
        rw [List.drop_eq_nil_iff, FStr.contents_length s hs]; omega
      rw [this]
      exact ⟨[], trivial, by simp⟩

theorem digitChars_unique (c : Char) (d e : Nat) (h : (c, d) ∈ digitChars) (h' : (c, e) ∈ digitChars) : d = e := by
  have key : ∀ p ∈ digitChars, ∀ q ∈ digitChars, p.1 = q.1 → p.2 = q.2 := by decide
  exact key _ h _ h' rfl

theorem DigitText_unique (b : Nat) : ∀ (cs : List Char) (ds es : List Nat), DigitText b cs ds → DigitText b cs es → ds = es
  | [], [], [], _, _ => rfl
  | [], _ :: _, _, h, _ => h.elim
  | [], _, _ :: _, _, h => h.elim
  | _ :: _, [], _, h, _ => h.elim
  | _ :: _, _, [], _, h => h.elim
  | c :: cs, d :: ds, e :: es, h, h' => by
    rw [digitChars_unique c d e h.1 h'.1, DigitText_unique b cs ds es h.2.2 h'.2.2]

theorem accumulateDots_eq : ∀ (cs : List Char) (acc : List Char) (c : Char),
    accumulateDots (acc ++ [c]) cs = acc ++ dotJoin (c :: cs)
  | [], acc, c => by simp [accumulateDots, dotJoin]
  | d :: cs, acc, c => by
    have := accumulateDots_eq cs (acc ++ [c] ++ ['.']) d
    rw [accumulateDots, this]
    simp [dotJoin]

theorem dotJoin_inj : ∀ (a b : List Char), dotJoin a = dotJoin b → a = b
  | [], [], _ => rfl
  | [], [_], h => by simp [dotJoin] at h
  | [], _ :: _ :: _, h => by simp [dotJoin] at h
  | [_], [], h => by simp [dotJoin] at h
  | _ :: _ :: _, [], h => by simp [dotJoin] at h
  | [a], [b], h => by simpa [dotJoin] using h
  | [a], b :: c :: bs, h => by simp [dotJoin] at h
  | a :: c :: as, [b], h => by simp [dotJoin] at h
  | a :: c :: as, b :: d :: bs, h => by
    simp only [dotJoin, List.cons.injEq, true_and] at h
    rw [h.1, dotJoin_inj (c :: as) (d :: bs) h.2]

theorem nibbles_inj : ∀ (n a b : Nat), nibbles n a = nibbles n b → a % 16 ^ n = b % 16 ^ n
  | 0, a, b, _ => by simp [Nat.mod_one]
  | n + 1, a, b, h => by
    simp only [nibbles, List.cons.injEq] at h
    obtain ⟨h1, h2⟩ := h
    have ih := nibbles_inj n _ _ h2
    have hd : ∀ x y : Nat, x < 16 → y < 16 → x.digitChar = y.digitChar → x = y := by
      intro x y hx hy
      interval_cases x <;> interval_cases y <;> decide
    have e := hd _ _ (Nat.mod_lt _ (by omega)) (Nat.mod_lt _ (by omega)) h1
    rw [Nat.pow_succ, Nat.mul_comm, Nat.mod_mul, Nat.mod_mul, e, ih]

theorem nibbles_length : ∀ (n v : Nat), (nibbles n v).length = n
  | 0, _ => rfl
  | n + 1, v => by simp [nibbles, nibbles_length n]

/-- Reversed digits of the groups are the nibbles of the value, lowest first. -/
theorem nibbles_add (n m v w : Nat) (h : w < 16 ^ n) :
    nibbles (n + m) (v * 16 ^ n + w) = nibbles n w ++ nibbles m v := by
  induction n generalizing w with
  | zero =>
    have : w = 0 := by simpa using h
    subst this; simp [nibbles]
  | succ n ih =>
    have h1 := ih (w / 16) (by rw [Nat.pow_succ, Nat.mul_comm] at h; exact Nat.div_lt_of_lt_mul h)
    rw [show n + 1 + m = (n + m) + 1 by omega]
    simp only [nibbles, List.cons_append]
    have e1 : (v * 16 ^ (n + 1) + w) % 16 = w % 16 := by
      rw [Nat.pow_succ, ← Nat.mul_assoc, Nat.mul_comm _ 16, Nat.mul_add_mod]
    have e2 : (v * 16 ^ (n + 1) + w) / 16 = v * 16 ^ n + w / 16 := by
      rw [Nat.pow_succ, ← Nat.mul_assoc, Nat.mul_comm _ 16, Nat.mul_add_div (by omega)]
    rw [e1, e2, h1]

theorem hex4_reverse (v : Nat) : (hex4 v).reverse = nibbles 4 v := by
  simp only [hex4, nibbles, List.reverse_cons, List.reverse_nil, List.nil_append, List.cons_append,
    Nat.div_div_eq_div_mul]

theorem filter_colons (ts : List (List Char)) (h : ∀ t ∈ ts, ∀ c ∈ t, c ≠ ':') :
    (colons ts).filter (· ≠ ':') = ts.flatten := by
  induction ts with
  | nil => rfl
  | cons t ts ih =>
    have ih := ih (fun u hu => h u (by simp [hu]))
    have ht : t.filter (· ≠ ':') = t := List.filter_eq_self.2 (by simpa using h t (by simp))
    cases ts with
    | nil => simpa [colons] using h t (by simp)
    | cons u us =>
      rw [show colons (t :: u :: us) = t ++ ':' :: colons (u :: us) from rfl, List.filter_append, ht]
      rw [List.filter_cons_of_neg (by simp), ih]
      simp

theorem beValue_groups : ∀ (l : List (BitVec 8)) (n : Nat), l.length = 2 * n →
    ((groupsOf l).map hex4).flatten.reverse = nibbles (4 * n) (beValue l)
  | [], 0, _ => rfl
  | [_], n, h => by simp at h; omega
  | a :: b :: r, n + 1, h => by
    have ih := beValue_groups r n (by simp at h; omega)
    have hl : r.length = 2 * n := by simp at h; omega
    have hv := beValue_lt r
    simp only [groupsOf, List.map_cons, List.flatten_cons, List.reverse_append, ih, hex4_reverse]
    rw [show 4 * (n + 1) = 4 * n + 4 by omega]
    have e : beValue (a :: b :: r) = (a.toNat * 256 + b.toNat) * 16 ^ (4 * n) + beValue r := by
      have : (256 : Nat) ^ r.length = 16 ^ (4 * n) := by
        rw [hl, show (256 : Nat) = 16 ^ 2 from rfl, ← Nat.pow_mul]; congr 1; omega
      simp only [beValue, List.length_cons, Nat.pow_succ, this, Nat.add_mul]
      have := Nat.mul_comm (16 ^ (4 * n)) 256
      rw [this, ← Nat.mul_assoc]
      omega
    rw [e, nibbles_add]
    rwa [hl, show (256 : Nat) = 16 ^ 2 from rfl, ← Nat.pow_mul, show 2 * (2 * n) = 4 * n by omega] at hv

theorem hex4_noColon (v : Nat) : ∀ c ∈ hex4 v, c ≠ ':' := by
  have h : ∀ m, (m % 16).digitChar ≠ ':' := by
    intro m
    have : m % 16 < 16 := Nat.mod_lt _ (by omega)
    generalize m % 16 = k at this
    interval_cases k <;> decide
  simp only [hex4, List.mem_cons, List.mem_nil_iff, or_false]
  rintro c (rfl | rfl | rfl | rfl) <;> exact h _

end Ip
