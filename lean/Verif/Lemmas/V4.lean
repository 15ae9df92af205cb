import Verif.Model.V4
import Verif.Spec.V4
set_option autoImplicit false

namespace Ip
open Spec

theorem dec_length_le3 {n : Nat} (h : n < 1000) : (dec n).length ≤ 3 :=
  (Nat.length_toDigits_le_iff (by decide) (by decide)).2 (by omega)

theorem dec_length_gt3 {n : Nat} (h : 1000 ≤ n) : 3 < (dec n).length := by
  have := @Nat.length_toDigits_le_iff 10 n 3 (by decide) (by decide)
  unfold dec; omega

theorem dec_ne_nil (n : Nat) : dec n ≠ [] := Nat.toDigits_ne_nil

theorem dec_small {n : Nat} (h : n < 10) : dec n = [n.digitChar] := Nat.toDigits_of_lt_base h

theorem dec_step {n : Nat} (h : 10 ≤ n) : dec n = dec (n / 10) ++ [(n % 10).digitChar] :=
  Nat.toDigits_of_base_le (by decide) h

theorem dec_snoc {n d : Nat} (hn : 0 < n) (hd : d < 10) : dec (n * 10 + d) = dec n ++ [d.digitChar] := by
  have h := @Nat.toDigits_append_toDigits 10 n d (by decide) hn hd
  rw [Nat.toDigits_of_lt_base hd] at h
  unfold dec; rw [h, Nat.mul_comm]

theorem dec_head {n : Nat} : (dec n).head? = some '0' ↔ n = 0 := by
  induction n using Nat.strongRecOn with
  | _ n ih =>
    by_cases h : n < 10
    · rw [dec_small h]
      match n, h with
      | 0, _ | 1, _ | 2, _ | 3, _ | 4, _ | 5, _ | 6, _ | 7, _ | 8, _ | 9, _ => decide
    · rw [dec_step (by omega)]
      have := ih (n / 10) (by omega)
      have hne := dec_ne_nil (n / 10)
      cases hd : dec (n / 10) with
      | nil => exact absurd hd hne
      | cons x xs =>
        rw [hd] at this
        simp at this ⊢
        rw [this]; omega

theorem digitChar_isDig {d : Nat} (h : d < 10) : isDig d.digitChar = true ∧ digitVal d.digitChar = d := by
  match d, h with
  | 0, _ | 1, _ | 2, _ | 3, _ | 4, _ | 5, _ | 6, _ | 7, _ | 8, _ | 9, _ => decide

theorem isDig_digitChar {c : Char} (h : isDig c = true) :
    digitVal c < 10 ∧ (digitVal c).digitChar = c := by
  simp only [isDig, Bool.and_eq_true, decide_eq_true_eq] at h
  have h0 : '0'.toNat = 48 := rfl
  have h9 : '9'.toNat = 57 := rfl
  rw [h0, h9] at h
  have hd : digitVal c < 10 := by unfold digitVal; omega
  refine ⟨hd, ?_⟩
  have hc : c = Char.ofNat c.toNat := (Char.ofNat_toNat c).symm
  have key : ∀ n, 48 ≤ n → n ≤ 57 → (n - 48).digitChar = Char.ofNat n := by
    intro n h1 h2
    have : n = 48 ∨ n = 49 ∨ n = 50 ∨ n = 51 ∨ n = 52 ∨ n = 53 ∨ n = 54 ∨ n = 55 ∨ n = 56 ∨ n = 57 := by
      omega
    rcases this with h | h | h | h | h | h | h | h | h | h <;> subst h <;> decide
  have := key c.toNat h.1 h.2
  rw [← hc] at this
  exact this

theorem isDig_dot : isDig '.' = false := by decide

theorem dec_isDig {n : Nat} {c : Char} (h : c ∈ dec n) : isDig c = true := by
  induction n using Nat.strongRecOn with
  | _ n ih =>
    by_cases hn : n < 10
    · rw [dec_small hn] at h
      simp at h; subst h; exact (digitChar_isDig hn).1
    · rw [dec_step (by omega)] at h
      rcases List.mem_append.1 h with h | h
      · exact ih _ (by omega) h
      · simp at h; subst h; exact (digitChar_isDig (Nat.mod_lt _ (by decide))).1

/-- Running the loop over the canonical text of a number below 1000. -/
theorem v4Loop_dec (n : Nat) (hn : n < 1000) (st : V4St) (hi : st.index < 4) (hd : st.digits = 0)
    (ho : st.octet = 0) (rest : List Ev) :
    v4Loop st ((dec n).map Ev.ch ++ rest) =
      v4Loop { st with first := (dec n).head (dec_ne_nil n), digits := (dec n).length, octet := n } rest := by
  induction n using Nat.strongRecOn generalizing rest with
  | _ n ih =>
    by_cases h : n < 10
    · have hc := digitChar_isDig h
      simp only [dec_small h, List.map_cons, List.map_nil, List.cons_append, List.nil_append, v4Loop]
      simp [v4Step, hc, hd, ho, Nat.not_le.2 hi]
    · have hdec := dec_step (n := n) (by omega)
      have ih' := ih (n / 10) (by omega) (by omega) (Ev.ch (n % 10).digitChar :: rest)
      have hc := digitChar_isDig (Nat.mod_lt n (show 0 < 10 by decide))
      have hlen : (dec n).length = (dec (n/10)).length + 1 := by rw [hdec]; simp
      have hlen3 := dec_length_le3 hn
      have hpos : 0 < (dec (n/10)).length := Nat.length_toDigits_pos
      have hhead : (dec n).head (dec_ne_nil n) = (dec (n/10)).head (dec_ne_nil _) := by
        simp only [hdec]; rw [List.head_append_of_ne_nil]
      have h0 : (dec (n/10)).head (dec_ne_nil _) ≠ '0' := by
        intro hh
        have : (dec (n/10)).head? = some '0' := by rw [List.head?_eq_some_head (dec_ne_nil _), hh]
        have := dec_head.1 this; omega
      rw [show (dec n).map Ev.ch ++ rest = (dec (n/10)).map Ev.ch ++ (Ev.ch (n % 10).digitChar :: rest) by
        rw [hdec]; simp]
      rw [ih', hhead, hlen]
      simp only [v4Loop]
      have : n / 10 * 10 + n % 10 = n := by omega
      simp [v4Step, hc, Nat.not_le.2 hi, h0, show ¬ (dec (n/10)).length + 1 > 3 by omega, this,
        dec_ne_nil]

/-- The loop invariant: the consumed text and the local variables. -/
structure V4Inv (p : List Char) (st : V4St) : Prop where
  ex : ∃ (done : List Nat) (cur : List Char),
    done.length = st.index ∧ st.index ≤ 4 ∧ (∀ o ∈ done, o ≤ 255) ∧
    st.octets = done.map (BitVec.ofNat 8) ++ List.replicate (4 - st.index) 0#8 ∧
    p = done.flatMap (fun o => dec o ++ ['.']) ++ cur ∧
    ((st.digits = 0 ∧ cur = [] ∧ st.octet = 0) ∨
      (0 < st.digits ∧ cur = dec st.octet ∧ st.digits = cur.length ∧ cur.head? = some st.first))

theorem v4Inv_init : V4Inv [] v4Init := by
  refine ⟨[], [], ?_⟩
  simp [v4Init]

theorem land_255 {n : Nat} (h : n ≤ 255) : n &&& 0xFF = n := by
  have := Nat.and_two_pow_sub_one_eq_mod n 8
  rw [show (2^8 - 1) = 0xFF from rfl] at this
  rw [this]; omega

theorem v4Step_inv {p : List Char} {st st' : V4St} {c : Char} (h : V4Inv p st)
    (hs : v4Step st c = .ok st') : V4Inv (p ++ [c]) st' := by
  obtain ⟨done, cur, h1, h2, h3, h4, h5, h6⟩ := h.ex
  unfold v4Step at hs
  split at hs
  · cases hs
  rename_i hi
  split at hs
  · rename_i hdig
    have hc := isDig_digitChar hdig
    split at hs
    · cases hs
    rename_i hlead
    simp only at hs
    split at hs
    · cases hs
    rename_i hd3
    cases hs
    refine ⟨done, cur ++ [c], ?_⟩
    refine ⟨h1, h2, h3, h4, by simp [h5], Or.inr ?_⟩
    rcases h6 with ⟨hd, hcur, ho⟩ | ⟨hd, hcur, hl, hf⟩
    · subst hcur
      simp [hd, ho, dec_small hc.1, hc.2]
    · have hne : st.first ≠ '0' := fun hh => hlead ⟨hd, hh⟩
      have hpos : 0 < st.octet := by
        apply Nat.pos_of_ne_zero; intro h0
        have := dec_head.2 h0
        rw [← hcur, hf] at this; exact hne (by simpa using this)
      have : st.digits ≠ 0 := by omega
      simp only [dec_snoc hpos hc.1, hc.2, ← hcur, this, if_false]
      refine ⟨by omega, trivial, by simp [hl], ?_⟩
      cases cur with
      | nil => simp at hf
      | cons x xs => simpa using hf
  · rename_i hdig
    split at hs
    · rename_i hdot
      split at hs
      · cases hs
      rename_i h255
      have hidx : st.index < 4 := by omega
      rw [wr_of_lt _ _ _ (by rw [h4]; simp; omega)] at hs
      rw [land_255 (by omega : st.octet ≤ 255)] at hs
      simp at hs
      subst hs
      rcases h6 with ⟨hd, _⟩ | ⟨hd, hcur, hl, hf⟩
      · omega
      refine ⟨done ++ [st.octet], [], ?_⟩
      refine ⟨by simp [h1], by simp; omega, ?_, ?_, ?_, Or.inl ⟨rfl, rfl, rfl⟩⟩
      · intro o ho
        rcases List.mem_append.1 ho with h | h
        · exact h3 o h
        · simp at h; omega
      · simp only [h4]
        rw [show 4 - st.index = (4 - (st.index + 1)) + 1 by omega, List.replicate_succ]
        rw [List.set_append_right _ _ (by simp [h1])]
        simp [h1]
      · rw [h5, hcur, hdot.1]; simp
    · split at hs <;> cases hs

theorem v4Step_ne_ub {p : List Char} {st : V4St} {c : Char} (h : V4Inv p st) : v4Step st c ≠ .ub := by
  obtain ⟨done, cur, h1, h2, h3, h4, h5, h6⟩ := h.ex
  unfold v4Step
  split
  · simp
  split
  · split
    · simp
    · simp only; split <;> simp
  · split
    · split
      · simp
      · rw [wr_of_lt _ _ _ (by rw [h4]; simp; omega)]; simp
    · split <;> simp

theorem v4Loop_ne_ub (evs : List Ev) : ∀ (p : List Char) (st : V4St), V4Inv p st → v4Loop st evs ≠ .ub := by
  induction evs with
  | nil => simp [v4Loop]
  | cons e rest ih =>
    intro p st h
    cases e with
    | bad c s => simp [v4Loop]
    | ch c =>
      simp only [v4Loop]
      apply Res.bind_ne_ub (v4Step_ne_ub h)
      intro a ha
      exact ih _ _ (v4Step_inv h ha)

theorem v4Loop_inv (evs : List Ev) : ∀ (p : List Char) (st st' : V4St), V4Inv p st → v4Loop st evs = .ok st' →
    ∃ s, evs = readChars s ∧ V4Inv (p ++ s) st' := by
  induction evs with
  | nil => intro p st st' h hs; simp [v4Loop] at hs; subst hs; exact ⟨[], rfl, by simpa using h⟩
  | cons e rest ih =>
    intro p st st' h hs
    cases e with
    | bad c s => simp [v4Loop] at hs
    | ch c =>
      simp only [v4Loop] at hs
      obtain ⟨a, ha, hs⟩ := Res.bind_eq_ok.1 hs
      obtain ⟨s, h1, h2⟩ := ih _ _ _ (v4Step_inv h ha) hs
      exact ⟨c :: s, by simp [readChars, h1] , by simpa using h2⟩

theorem v4FromEvents_ne_ub (evs : List Ev) : v4FromEvents evs ≠ .ub := by
  unfold v4FromEvents
  split
  · simp
  apply Res.bind_ne_ub (v4Loop_ne_ub _ _ _ v4Inv_init)
  intro st hst
  obtain ⟨s, _, hinv⟩ := v4Loop_inv _ _ _ _ v4Inv_init hst
  obtain ⟨done, cur, h1, h2, h3, h4, h5, h6⟩ := hinv.ex
  unfold v4Finish
  split
  · simp
  split
  · simp
  split
  · simp
  · rw [wr_of_lt _ _ _ (by rw [h4]; simp; omega)]; simp

theorem v4FromEvents_ok {evs : List Ev} {r : List (BitVec 8)} (h : v4FromEvents evs = .ok r) :
    ∃ a b c d : BitVec 8, r = [a, b, c, d] ∧ evs = readChars (dotted a b c d) := by
  unfold v4FromEvents at h
  split at h
  · cases h
  obtain ⟨st, hst, hf⟩ := Res.bind_eq_ok.1 h
  obtain ⟨s, hs, hinv⟩ := v4Loop_inv _ _ _ _ v4Inv_init hst
  obtain ⟨done, cur, h1, h2, h3, h4, h5, h6⟩ := hinv.ex
  unfold v4Finish at hf
  split at hf
  · cases hf
  rename_i hi
  split at hf
  · cases hf
  rename_i hd
  split at hf
  · cases hf
  rename_i h255
  have hi : st.index = 3 := by omega
  rw [wr_of_lt _ _ _ (by rw [h4]; simp; omega)] at hf
  cases hf
  rcases h6 with ⟨h, _⟩ | ⟨_, hcur, _, _⟩
  · exact absurd h hd
  rw [hi] at h1
  match done, h1 with
  | [a, b, c], _ =>
    have ha := h3 a (by simp)
    have hb := h3 b (by simp)
    have hc := h3 c (by simp)
    refine ⟨BitVec.ofNat 8 a, BitVec.ofNat 8 b, BitVec.ofNat 8 c, BitVec.ofNat 8 st.octet, ?_, ?_⟩
    · rw [land_255 (by omega : st.octet ≤ 255), h4, hi]; simp
    · rw [hs]
      simp only [List.nil_append] at h5
      rw [h5, hcur]
      have e : ∀ n, n ≤ 255 → (BitVec.ofNat 8 n).toNat = n := by
        intro n hn; simp; omega
      simp only [dotted, e a ha, e b hb, e c hc, e st.octet (by omega)]
      simp

theorem v4Loop_octet (n : BitVec 8) (st : V4St) (hi : st.index < 4) (hd : st.digits = 0)
    (ho : st.octet = 0) (hl : st.octets.length = 4) (rest : List Ev) :
    v4Loop st ((dec n.toNat).map Ev.ch ++ Ev.ch '.' :: rest) =
      v4Loop { octets := st.octets.set st.index n, first := (dec n.toNat).head (dec_ne_nil _),
               digits := 0, octet := 0, index := st.index + 1 } rest := by
  have hn := n.isLt
  have hp : 0 < (dec n.toNat).length := Nat.length_toDigits_pos
  rw [v4Loop_dec n.toNat (by omega) st hi hd ho]
  simp only [v4Loop, v4Step, isDig_dot]
  rw [if_neg (by omega), if_neg (by simp), if_pos ⟨trivial, hp⟩, if_neg (by omega),
    land_255 (by omega), wr_of_lt _ _ _ (by omega)]
  simp

theorem v4FromEvents_dotted (a b c d : BitVec 8) :
    v4FromEvents (readChars (dotted a b c d)) = .ok [a, b, c, d] := by
  have hd := d.isLt
  have ne : readChars (dotted a b c d) ≠ [] := by
    simp [readChars, dotted, dec_ne_nil]
  unfold v4FromEvents
  rw [if_neg ne]
  simp only [readChars, dotted, List.map_append, List.map_cons]
  rw [v4Loop_octet a _ (by simp [v4Init]) rfl rfl rfl]
  rw [v4Loop_octet b _ (by simp [v4Init]) rfl rfl (by simp [v4Init])]
  rw [v4Loop_octet c _ (by simp [v4Init]) rfl rfl (by simp [v4Init])]
  rw [← List.append_nil (List.map Ev.ch (dec d.toNat))]
  rw [v4Loop_dec d.toNat (by omega) _ (by simp [v4Init]) rfl rfl]
  simp only [v4Loop, v4Finish, v4Init, Res.ok_bind]
  rw [if_neg (by simp), if_neg (by simp [dec_ne_nil]), if_neg (by omega), land_255 (by omega),
    wr_of_lt _ _ _ (by simp)]
  simp

theorem ofNat_digit {d : Nat} (h : d < 10) : Char.ofNat (d + '0'.toNat) = d.digitChar := by
  match d, h with
  | 0, _ | 1, _ | 2, _ | 3, _ | 4, _ | 5, _ | 6, _ | 7, _ | 8, _ | 9, _ => decide

theorem dec2 {n : Nat} (h : 10 ≤ n) (h2 : n < 100) :
    dec n = [(n / 10).digitChar, (n % 10).digitChar] := by
  rw [dec_step h, dec_small (by omega)]; rfl

theorem dec3 {n : Nat} (h : 100 ≤ n) (h2 : n < 1000) :
    dec n = [(n / 10 / 10).digitChar, (n / 10 % 10).digitChar, (n % 10).digitChar] := by
  rw [dec_step (by omega), dec2 (by omega) (by omega)]; rfl

/-- `byte_to_string` writes the decimal text and a terminator into its four character buffer. -/
theorem byteToString_eq (b : BitVec 8) (buf : List Char) (hb : buf.length = 4) :
    ∃ rest, byteToString b buf = .ok (dec b.toNat ++ '\x00' :: rest, (dec b.toNat).length) ∧
      ((dec b.toNat) ++ '\x00' :: rest).length = 4 := by
  have hlt := b.isLt
  match buf, hb with
  | [x0, x1, x2, x3], _ =>
    generalize hn : b.toNat = n at *
    unfold byteToString
    rw [hn]
    by_cases h1 : n < 10
    · refine ⟨[x2, x3], ?_⟩
      have e0 : n / 10 = 0 := by omega
      have em : n % 10 = n := by omega
      rw [dec_small h1]
      simp [byteDigitsLoop, wr, e0, em, byteReverseLoop]
      have := ofNat_digit h1
      simpa using this
    · by_cases h2 : n < 100
      · refine ⟨[x3], ?_⟩
        have e0 : n / 10 ≠ 0 := by omega
        have e1 : n / 10 / 10 = 0 := by omega
        have em : n / 10 % 10 = n / 10 := by omega
        have l1 := ofNat_digit (show n / 10 < 10 by omega)
        have l0 := ofNat_digit (show n % 10 < 10 by omega)
        rw [dec2 (by omega) h2]
        simp only [byteDigitsLoop, wr, e1, em, l0, l1]
        simp [h1, byteReverseLoop, rd, wr]
      · refine ⟨[], ?_⟩
        have e0 : n / 10 ≠ 0 := by omega
        have e1 : n / 10 / 10 ≠ 0 := by omega
        have e2 : n / 10 / 10 / 10 = 0 := by omega
        have em : n / 10 / 10 % 10 = n / 10 / 10 := by omega
        have l2 := ofNat_digit (show n / 10 / 10 < 10 by omega)
        have l1 := ofNat_digit (show n / 10 % 10 < 10 by omega)
        have l0 := ofNat_digit (show n % 10 < 10 by omega)
        rw [dec3 (by omega) (by omega)]
        simp only [byteDigitsLoop, wr, e2, em, l0, l1, l2]
        simp [show 10 ≤ n by omega, show 10 ≤ n / 10 by omega, byteReverseLoop, rd, wr]

theorem v4CopyLoop_eq (src : List Char) : ∀ (pre post : List Char) (w : List Char) (free : List Char) (i off : Nat),
    i = pre.length → off = w.length → src.length ≤ free.length →
    v4CopyLoop src.length (pre ++ src ++ post) i (w ++ free) off =
      .ok (w ++ src ++ free.drop src.length, off + src.length) := by
  induction src with
  | nil => intros; simp [v4CopyLoop]
  | cons c cs ih =>
    intro pre post w free i off hi ho hf
    cases free with
    | nil => simp at hf
    | cons f fs =>
      simp only [List.length_cons, v4CopyLoop]
      rw [show pre ++ c :: cs ++ post = pre ++ c :: (cs ++ post) by simp, rd_append _ _ _ _ hi]
      simp only [Res.ok_bind]
      rw [wr_append _ _ _ _ _ ho]
      simp only [Res.ok_bind]
      have := ih (pre ++ [c]) post (w ++ [c]) fs (i + 1) (off + 1) (by simp [hi]) (by simp [ho]) (by simpa using hf)
      rw [show pre ++ c :: (cs ++ post) = pre ++ [c] ++ cs ++ post by simp,
        show w ++ c :: fs = w ++ [c] ++ fs by simp, this]
      simp; omega

/-- Joined text of a byte sequence. -/
def joinDots : Nat → List (BitVec 8) → List Char
  | _, [] => []
  | b, x :: xs => dec x.toNat ++ (if b < 3 then ['.'] else []) ++ joinDots (b + 1) xs

theorem v4CharsLoop_eq (bytes : List (BitVec 8)) : ∀ (b : Nat) (buf w free : List Char) (off : Nat),
    buf.length = 4 → off = w.length → 4 * bytes.length ≤ free.length →
    v4CharsLoop bytes b buf (w ++ free) off =
      .ok (w ++ joinDots b bytes ++ free.drop (joinDots b bytes).length, off + (joinDots b bytes).length) := by
  induction bytes with
  | nil => intros; simp [v4CharsLoop, joinDots]
  | cons x xs ih =>
    intro b buf w free off hb ho hf
    obtain ⟨rest, hbs, hlen⟩ := byteToString_eq x buf hb
    have h3 := dec_length_le3 (n := x.toNat) (by have := x.isLt; omega)
    simp only [List.length_cons] at hf
    simp only [v4CharsLoop, hbs, Res.ok_bind]
    have := v4CopyLoop_eq (dec x.toNat) [] ('\x00' :: rest) w free 0 off rfl ho (by omega)
    simp only [List.nil_append] at this
    rw [this]
    simp only [Res.ok_bind]
    split
    · rename_i hlt
      obtain ⟨f, fs, hfs⟩ : ∃ f fs, free.drop (dec x.toNat).length = f :: fs := by
        cases h : free.drop (dec x.toNat).length with
        | nil => have := congrArg List.length h; simp at this; omega
        | cons f fs => exact ⟨f, fs, rfl⟩
      rw [hfs, wr_append _ _ _ _ _ (by simp [ho])]
      simp only [Res.ok_bind]
      have hl : fs.length + 1 = free.length - (dec x.toNat).length := by
        have := congrArg List.length hfs; simp at this; omega
      have ih' := ih (b + 1) (dec x.toNat ++ '\x00' :: rest) (w ++ dec x.toNat ++ ['.']) fs
        (off + (dec x.toNat).length + 1) hlen (by simp [ho]; omega) (by omega)
      rw [show w ++ dec x.toNat ++ '.' :: fs = w ++ dec x.toNat ++ ['.'] ++ fs by simp, ih']
      have hdrop : free.drop ((dec x.toNat).length + 1) = fs := by
        rw [← List.drop_drop, hfs]; rfl
      simp only [joinDots, hlt, if_true]
      simp only [List.length_append, List.length_cons, List.length_nil, List.append_assoc]
      rw [← hdrop]
      simp [Nat.add_assoc]
    · rename_i hlt
      have ih' := ih (b + 1) (dec x.toNat ++ '\x00' :: rest) (w ++ dec x.toNat) (free.drop (dec x.toNat).length)
        (off + (dec x.toNat).length) hlen (by simp [ho]) (by simp; omega)
      rw [ih']
      simp only [joinDots, hlt, if_false]
      simp [Nat.add_assoc]

theorem joinDots_dotted (a b c d : BitVec 8) : joinDots 0 [a, b, c, d] = dotted a b c d := by
  simp [joinDots, dotted]

theorem dotted_length (a b c d : BitVec 8) : (dotted a b c d).length ≤ 15 ∧ 7 ≤ (dotted a b c d).length := by
  have h := fun x : BitVec 8 => dec_length_le3 (n := x.toNat) (by have := x.isLt; omega)
  have h' := fun x : BitVec 8 => @Nat.length_toDigits_pos 10 x.toNat
  have := h a; have := h b; have := h c; have := h d
  have := h' a; have := h' b; have := h' c; have := h' d
  simp only [dotted, List.length_append, List.length_cons]
  unfold dec at *
  omega

/-- `ip_to_chars` never leaves its buffer and produces the dotted text and a terminator. -/
theorem v4ToChars_eq (a b c d : BitVec 8) (buf : List Char) (hb : buf.length = 16) :
    ∃ rest, v4ToChars [a, b, c, d] buf =
      .ok (dotted a b c d ++ '\x00' :: rest, (dotted a b c d).length) ∧
      (dotted a b c d ++ '\x00' :: rest).length = 16 := by
  have hlen := (dotted_length a b c d).1
  have := v4CharsLoop_eq [a, b, c, d] 0 (List.replicate 4 '\x00') [] buf 0 (by simp) rfl (by simp [hb])
  simp only [List.nil_append, joinDots_dotted, Nat.zero_add] at this
  unfold v4ToChars
  rw [this]
  obtain ⟨f, fs, hfs⟩ : ∃ f fs, buf.drop (dotted a b c d).length = f :: fs := by
    cases h : buf.drop (dotted a b c d).length with
    | nil => have := congrArg List.length h; simp at this; omega
    | cons f fs => exact ⟨f, fs, rfl⟩
  refine ⟨fs, ?_, ?_⟩
  · simp only [Res.ok_bind]
    rw [hfs, wr_append _ _ _ _ _ rfl]
    simp
  · have := congrArg List.length hfs
    simp at this ⊢; omega

theorem v4ToString_eq (a b c d : BitVec 8) : v4ToString [a, b, c, d] = .ok (dotted a b c d) := by
  obtain ⟨rest, h, _⟩ := v4ToChars_eq a b c d (List.replicate 16 '\x00') (by simp)
  unfold v4ToString
  rw [h]; simp

theorem v4Parse_ok_iff (s : List Char) (r : List (BitVec 8)) :
    v4Parse s = .ok r ↔ ∃ a b c d : BitVec 8, r = [a, b, c, d] ∧ s = dotted a b c d := by
  constructor
  · intro h
    obtain ⟨a, b, c, d, h1, h2⟩ := v4FromEvents_ok h
    refine ⟨a, b, c, d, h1, ?_⟩
    exact (List.map_inj_right (f := Ev.ch) (by intro x y h; cases h; rfl)).1 h2
  · rintro ⟨a, b, c, d, rfl, rfl⟩
    exact v4FromEvents_dotted a b c d

end Ip
