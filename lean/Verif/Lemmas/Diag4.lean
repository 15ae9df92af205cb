import Verif.Spec.Diag4
import Verif.Lemmas.V4
/-
Facts on the errors reported by the IPv4 parser.
-/
set_option autoImplicit false

namespace Ip
open Spec

theorem isDigit_isDig (c : Char) : c.isDigit = isDig c := by
  unfold Char.isDigit isDig
  rfl

theorem octetsText_nil : octetsText [] = [] := rfl

theorem octetsText_snoc (done : List Nat) (o : Nat) : octetsText (done ++ [o]) = octetsText done ++ (dec o ++ ['.']) := by
  unfold octetsText; rw [List.flatMap_append]; simp

theorem v4Loop_done : ∀ (done : List Nat) (st : V4St), st.digits = 0 → st.octet = 0 → st.octets.length = 4 →
    st.index + done.length ≤ 4 → (∀ o ∈ done, o ≤ 255) →
    ∃ st' : V4St, st'.digits = 0 ∧ st'.octet = 0 ∧ st'.octets.length = 4 ∧ st'.index = st.index + done.length ∧
      ∀ rest, v4Loop st (readChars (octetsText done) ++ rest) = v4Loop st' rest
  | [], st, h1, h2, h3, _, _ => ⟨st, h1, h2, h3, rfl, fun _ => rfl⟩
  | o :: done, st, h1, h2, h3, h4, h5 => by
    have ho := h5 o (by simp)
    simp only [List.length_cons] at h4
    have e : (BitVec.ofNat 8 o).toNat = o := by simp; omega
    have hs := v4Loop_octet (BitVec.ofNat 8 o) st (by omega) h1 h2 h3
    rw [e] at hs
    obtain ⟨st', g1, g2, g3, g4, g5⟩ := v4Loop_done done
      { octets := st.octets.set st.index (BitVec.ofNat 8 o), first := (dec o).head (dec_ne_nil o), digits := 0, octet := 0, index := st.index + 1 }
      rfl rfl (by simp [h3]) (by simp only; omega) (fun x hx => h5 x (by simp [hx]))
    refine ⟨st', g1, g2, g3, by rw [g4, List.length_cons]; simp only; omega, fun rest => ?_⟩
    rw [← g5 rest, ← hs]
    simp [readChars, octetsText]

theorem v4Loop_err {st : V4St} {c : Char} {code : ErrorCode} {v : Nat} (h : v4Step st c = .err code v) (rest : List Ev) :
    v4Loop st (.ch c :: rest) = .err code v := by
  rw [v4Loop, h]; rfl

theorem octetFault_run {rest : List Char} {code : ErrorCode} (h : OctetFault rest code) (st : V4St) (h1 : st.digits = 0)
    (h2 : st.octet = 0) (h3 : st.index < 4) (evs : List Ev) : v4Loop st (readChars rest ++ evs) = .err code st.index := by
  have happ : ∀ n (r : List Char), readChars (dec n ++ r) ++ evs = (dec n).map Ev.ch ++ (readChars r ++ evs) := by
    intro n r; simp [readChars]
  cases h with
  | empty post =>
    refine v4Loop_err ?_ _
    simp [v4Step, isDig_dot, h1, Nat.not_le.2 h3]
  | symbol cur c post hc hd hn =>
    rw [isDigit_isDig] at hd
    rcases hc with rfl | ⟨n, hn', rfl⟩
    · refine v4Loop_err ?_ _
      simp [v4Step, hd, hn, Nat.not_le.2 h3]
    · rw [happ, v4Loop_dec n hn' st h3 h1 h2]
      refine v4Loop_err ?_ _
      simp [v4Step, hd, hn, Nat.not_le.2 h3]
  | zero d post hd =>
    rw [isDigit_isDig] at hd
    have := v4Loop_dec 0 (by omega) st h3 h1 h2 (readChars (d :: post) ++ evs)
    have e : ('0' :: d :: post) = dec 0 ++ d :: post := rfl
    rw [e, happ, this]
    refine v4Loop_err ?_ _
    have z : (dec 0).head (dec_ne_nil 0) = '0' := rfl
    have l : (dec 0).length = 1 := rfl
    simp [v4Step, hd, Nat.not_le.2 h3, z, l]
  | long n d post hn1 hn2 hd =>
    rw [isDigit_isDig] at hd
    rw [happ, v4Loop_dec n hn2 st h3 h1 h2]
    refine v4Loop_err ?_ _
    have l : (dec n).length = 3 := by
      have := dec_length_le3 hn2
      have : ¬ (dec n).length ≤ 2 := fun hl => by
        have := (Nat.length_toDigits_le_iff (b := 10) (n := n) (k := 2) (by decide) (by decide)).1 hl
        omega
      omega
    have z : (dec n).head (dec_ne_nil n) ≠ '0' := by
      intro hh
      have : (dec n).head? = some '0' := by rw [List.head?_eq_some_head (dec_ne_nil _), hh]
      have := dec_head.1 this; omega
    simp [v4Step, hd, Nat.not_le.2 h3, z, l]
  | large n post hn1 hn2 =>
    rw [happ, v4Loop_dec n hn2 st h3 h1 h2]
    refine v4Loop_err ?_ _
    simp [v4Step, isDig_dot, Nat.not_le.2 h3, dec_ne_nil, hn1]

theorem v4Fault_run {s : List Char} {code : ErrorCode} {v : Nat} (h : V4Fault s code v) (evs : List Ev) :
    v4Loop v4Init (readChars s ++ evs) = .err code v := by
  cases h with
  | octet done rest code hl ho hf =>
    obtain ⟨st, g1, g2, g3, g4, g5⟩ := v4Loop_done done v4Init rfl rfl rfl (by show 0 + _ ≤ _; omega) ho
    rw [show readChars (octetsText done ++ rest) ++ evs = readChars (octetsText done) ++ (readChars rest ++ evs) by simp [readChars], g5]
    have g4' : st.index = done.length := by rw [g4]; show 0 + _ = _; omega
    rw [octetFault_run hf st g1 g2 (by omega), g4']
  | more done c rest hl ho =>
    obtain ⟨st, g1, g2, g3, g4, g5⟩ := v4Loop_done done v4Init rfl rfl rfl (by show 0 + _ ≤ _; omega) ho
    rw [show readChars (octetsText done ++ c :: rest) ++ evs = readChars (octetsText done) ++ (.ch c :: (readChars rest ++ evs)) by simp [readChars], g5]
    have g4' : st.index = 4 := by rw [g4, hl]; rfl
    exact v4Loop_err (by simp [v4Step, g4']) _

theorem v4EndFault_run {s : List Char} {code : ErrorCode} {v : Nat} (h : V4EndFault s code v) :
    ∃ st, v4Loop v4Init (readChars s) = .ok st ∧ v4Finish st = .err code v := by
  have happ : ∀ (done : List Nat) (r : List Char), readChars (octetsText done ++ r) = readChars (octetsText done) ++ readChars r := by
    intro n r; simp [readChars]
  have hdec : ∀ n, readChars (dec n) = (dec n).map Ev.ch ++ [] := by intro n; simp [readChars]
  cases h with
  | few done rest hl ho hr =>
    obtain ⟨st, g1, g2, g3, g4, g5⟩ := v4Loop_done done v4Init rfl rfl rfl (by show 0 + _ ≤ _; omega) ho
    have g4' : st.index = done.length := by rw [g4]; show 0 + _ = _; omega
    rw [happ, g5]
    rcases hr with rfl | ⟨n, hn, rfl⟩
    · exact ⟨st, rfl, by unfold v4Finish; rw [if_pos (by omega), g4']⟩
    · rw [hdec, v4Loop_dec n hn st (by omega) g1 g2]
      exact ⟨_, rfl, by unfold v4Finish; simp only; rw [if_pos (by omega), g4']⟩
  | empty done hl ho =>
    obtain ⟨st, g1, g2, g3, g4, g5⟩ := v4Loop_done done v4Init rfl rfl rfl (by show 0 + _ ≤ _; omega) ho
    have g4' : st.index = done.length := by rw [g4]; show 0 + _ = _; omega
    have := g5 []
    rw [List.append_nil] at this
    rw [this]
    exact ⟨st, rfl, by unfold v4Finish; rw [if_neg (by omega), if_pos g1, g4', hl]⟩
  | large done n hl ho h1 h2 =>
    obtain ⟨st, g1, g2, g3, g4, g5⟩ := v4Loop_done done v4Init rfl rfl rfl (by show 0 + _ ≤ _; omega) ho
    have g4' : st.index = done.length := by rw [g4]; show 0 + _ = _; omega
    rw [happ, g5, hdec, v4Loop_dec n h2 st (by omega) g1 g2]
    refine ⟨_, rfl, ?_⟩
    unfold v4Finish
    simp only
    rw [if_neg (by omega), if_neg (by simp [dec_ne_nil]), if_pos h1, g4', hl]
  | trailing done hl ho =>
    obtain ⟨st, g1, g2, g3, g4, g5⟩ := v4Loop_done done v4Init rfl rfl rfl (by show 0 + _ ≤ _; omega) ho
    have g4' : st.index = done.length := by rw [g4]; show 0 + _ = _; omega
    have := g5 []
    rw [List.append_nil] at this
    rw [this]
    exact ⟨st, rfl, by unfold v4Finish; rw [if_pos (by omega), g4', hl]⟩

/-- At most three digits were read of the octet begun, and none after the fourth dot. -/
def V4Few (st : V4St) : Prop := st.digits ≤ 3 ∧ (st.index = 4 → st.digits = 0)

theorem v4Step_digits {st st' : V4St} {c : Char} (hs : v4Step st c = .ok st') : V4Few st' := by
  unfold v4Step at hs
  unfold V4Few
  split at hs
  · cases hs
  split at hs
  · split at hs
    · cases hs
    simp only at hs
    split at hs
    · cases hs
    · cases hs; simp only; exact ⟨by omega, by omega⟩
  · split at hs
    · split at hs
      · cases hs
      obtain ⟨_, _, hs⟩ := Res.bind_eq_ok.1 hs
      cases hs; simp
    · split at hs <;> cases hs

/-- Where the loop stands: the number of complete octets, and the number begun. -/
theorem v4Inv_shape {p : List Char} {st : V4St} (h : V4Inv p st) (hd : V4Few st) :
    ∃ done cur, done.length = st.index ∧ st.index ≤ 4 ∧ (∀ o ∈ done, o ≤ 255) ∧ p = octetsText done ++ cur ∧
      ((st.digits = 0 ∧ cur = [] ∧ st.octet = 0) ∨
        (0 < st.digits ∧ cur = dec st.octet ∧ st.octet < 1000 ∧ st.digits = cur.length ∧ cur.head? = some st.first)) := by
  obtain ⟨done, cur, h1, h2, h3, h4, h5, h6⟩ := h.ex
  refine ⟨done, cur, h1, h2, h3, h5, ?_⟩
  rcases h6 with h6 | ⟨a, b, c, d⟩
  · exact .inl h6
  · refine .inr ⟨a, b, ?_, c, d⟩
    by_cases hn : st.octet < 1000
    · exact hn
    · have := dec_length_gt3 (n := st.octet) (by omega)
      rw [← b] at this; have := hd.1; omega

theorem v4Step_fault {p : List Char} {st : V4St} {c : Char} {code : ErrorCode} {v : Nat} (h : V4Inv p st) (hd : V4Few st)
    (hs : v4Step st c = .err code v) (post : List Char) : V4Fault (p ++ c :: post) code v := by
  obtain ⟨done, cur, h1, h2, h3, rfl, h6⟩ := v4Inv_shape h hd
  have hst : Started cur := by
    rcases h6 with ⟨_, h, _⟩ | ⟨_, h, h', _⟩
    · exact .inl h
    · exact .inr ⟨_, h', h⟩
  rw [List.append_assoc]
  unfold v4Step at hs
  split at hs
  · cases hs
    have e : st.index = 4 := by omega
    rw [e]
    cases cur with
    | nil => exact V4Fault.more done c post (by omega) h3
    | cons a cur => exact V4Fault.more done a (cur ++ c :: post) (by omega) h3
  rename_i hi
  have oct : ∀ code, OctetFault (cur ++ c :: post) code → V4Fault (octetsText done ++ (cur ++ c :: post)) code st.index := by
    intro code hf
    rw [← h1]
    exact V4Fault.octet done _ code (by omega) h3 hf
  split at hs
  · rename_i hdig
    split at hs
    · rename_i hz
      cases hs
      refine oct _ ?_
      rcases h6 with ⟨h, _⟩ | ⟨_, hcur, _, hl, hf⟩
      · omega
      · rw [hz.2, hcur] at hf
        have h0 := dec_head.1 hf
        rw [hcur, h0]
        exact OctetFault.zero c post (by rw [isDigit_isDig]; exact hdig)
    · rename_i hz
      simp only at hs
      split at hs
      · rename_i h3'
        cases hs
        refine oct _ ?_
        rcases h6 with ⟨h, _⟩ | ⟨_, hcur, hlt, hl, hf⟩
        · omega
        · rw [hcur]
          refine OctetFault.long st.octet c post ?_ hlt (by rw [isDigit_isDig]; exact hdig)
          by_cases hn : 100 ≤ st.octet
          · exact hn
          · have := (Nat.length_toDigits_le_iff (b := 10) (n := st.octet) (k := 2) (by decide) (by decide)).2 (by omega)
            have e : (Nat.toDigits 10 st.octet).length = st.digits := by rw [hl, hcur]; rfl
            omega
      · cases hs
  · rename_i hdig
    split at hs
    · rename_i hdot
      split at hs
      · rename_i h255
        cases hs
        refine oct _ ?_
        rcases h6 with ⟨h, _⟩ | ⟨_, hcur, hlt, hl, hf⟩
        · omega
        · rw [hcur, hdot.1]
          exact OctetFault.large st.octet post h255 hlt
      · obtain ⟨done', _, g1, g2, _, g4, _⟩ := h.ex
        rw [wr_of_lt _ _ _ (by rw [g4]; simp; omega)] at hs
        cases hs
    · rename_i hnd
      split at hs
      · rename_i hdot
        cases hs
        refine oct _ ?_
        rcases h6 with ⟨h, hcur, _⟩ | ⟨h, _⟩
        · rw [hcur, hdot]; exact OctetFault.empty post
        · exact absurd ⟨hdot, h⟩ hnd
      · rename_i hdot
        cases hs
        exact oct _ (OctetFault.symbol cur c post hst (by rw [isDigit_isDig]; simpa using hdig) hdot)

theorem v4Loop_cases : ∀ (s p : List Char) (st : V4St), V4Inv p st → V4Few st →
    (∃ st', V4Inv (p ++ s) st' ∧ V4Few st' ∧ ∀ tail, v4Loop st (readChars s ++ tail) = v4Loop st' tail) ∨
    (∃ code v, V4Fault (p ++ s) code v)
  | [], p, st, h, hd => .inl ⟨st, by rwa [List.append_nil], hd, fun _ => rfl⟩
  | c :: s, p, st, h, hd => by
    cases e : v4Step st c with
    | ub => exact absurd e (v4Step_ne_ub h)
    | err code v => exact .inr ⟨code, v, v4Step_fault h hd e s⟩
    | ok st' =>
      have he : ∀ tail, v4Loop st (readChars (c :: s) ++ tail) = v4Loop st' (readChars s ++ tail) := by
        intro tail
        show v4Loop st (.ch c :: (readChars s ++ tail)) = _
        rw [v4Loop, e]; rfl
      rw [show p ++ c :: s = (p ++ [c]) ++ s by simp]
      rcases v4Loop_cases s (p ++ [c]) st' (v4Step_inv h e) (v4Step_digits e) with ⟨st2, h1, h2, h3⟩ | h
      · exact .inl ⟨st2, h1, h2, fun tail => by rw [he, h3]⟩
      · exact .inr h

theorem v4Few_init : V4Few v4Init := ⟨by decide, by decide⟩

/-- Either the loop runs to the end of the characters, or something is wrong with them. -/
theorem v4Loop_split (s : List Char) :
    (∃ st, V4Inv s st ∧ V4Few st ∧ (∀ tail, v4Loop v4Init (readChars s ++ tail) = v4Loop st tail) ∧ ∀ code v, ¬ V4Fault s code v) ∨
    (∃ code v, V4Fault s code v ∧ ∀ code' v', V4Fault s code' v' → code' = code ∧ v' = v) := by
  rcases v4Loop_cases s [] v4Init v4Inv_init v4Few_init with ⟨st, h1, h2, h3⟩ | ⟨code, v, h⟩
  · refine .inl ⟨st, h1, h2, h3, fun code v hf => ?_⟩
    have := v4Fault_run hf []
    rw [h3] at this
    cases this
  · refine .inr ⟨code, v, h, fun code' v' h' => ?_⟩
    have a := v4Fault_run h []
    have b := v4Fault_run h' []
    rw [List.nil_append] at a
    rw [a] at b
    cases b
    exact ⟨rfl, rfl⟩

theorem v4Finish_fault {p : List Char} {st : V4St} (h : V4Inv p st) (hd : V4Few st) {code : ErrorCode} {v : Nat}
    (hs : v4Finish st = .err code v) : V4EndFault p code v := by
  obtain ⟨done, cur, h1, h2, h3, rfl, h6⟩ := v4Inv_shape h hd
  have hst : Started cur := by
    rcases h6 with ⟨_, h, _⟩ | ⟨_, h, h', _⟩
    · exact .inl h
    · exact .inr ⟨_, h', h⟩
  unfold v4Finish at hs
  split at hs
  · rename_i hi
    cases hs
    by_cases h4 : st.index = 4
    · rcases h6 with ⟨_, rfl, _⟩ | ⟨h, _⟩
      · rw [List.append_nil, h4]; exact V4EndFault.trailing done (by omega) h3
      · have := hd.2 h4; omega
    · rw [← h1]; exact V4EndFault.few done cur (by omega) h3 hst
  rename_i hi
  split at hs
  · rename_i h0
    cases hs
    rcases h6 with ⟨_, rfl, _⟩ | ⟨h, _⟩
    · rw [List.append_nil, show st.index = 3 by omega]; exact V4EndFault.empty done (by omega) h3
    · omega
  rename_i h0
  split at hs
  · rename_i h255
    cases hs
    rcases h6 with ⟨h, _⟩ | ⟨_, hcur, hlt, _⟩
    · omega
    · rw [hcur, show st.index = 3 by omega]; exact V4EndFault.large done _ (by omega) h3 h255 hlt
  · obtain ⟨done', _, g1, g2, _, g4, _⟩ := h.ex
    rw [wr_of_lt _ _ _ (by rw [g4]; simp; omega)] at hs
    cases hs

end Ip
