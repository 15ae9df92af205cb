import Verif.Lemmas.U128
/-
`divide_slow` computes the quotient (Knuth's algorithm D with a two limb guess).
-/
set_option autoImplicit false

namespace Ip
namespace U128

/-- Value of limbs in base `2^32`, least significant first. -/
def lv : List Nat → Nat
  | [] => 0
  | x :: xs => x + 4294967296 * lv xs

theorem lv_append (a c : List Nat) : lv (a ++ c) = lv a + 4294967296 ^ a.length * lv c := by
  induction a with
  | nil => simp [lv]
  | cons x xs ih => simp [lv, ih, Nat.pow_succ]; ring

theorem lv_lt (a : List Nat) (h : ∀ x ∈ a, x < 4294967296) : lv a < 4294967296 ^ a.length := by
  induction a with
  | nil => simp [lv]
  | cons x xs ih =>
    have h1 := h x (by simp)
    have h2 := ih (fun y hy => h y (by simp [hy]))
    simp only [lv, List.length_cons, Nat.pow_succ]
    omega

theorem subtractLoop_eq (right tail : List Nat) (n q : Nat) (hq : q < 4294967296) (post : List Nat) :
    ∀ (r m dr pre : List Nat) (i carry : Nat), right = dr ++ r ++ tail → dr.length = i → pre.length = n + i →
      m.length = r.length → (∀ x ∈ r, x < 4294967296) → (∀ x ∈ m, x < 4294967296) → carry < 4294967296 →
      ∃ m' c, subtractLoop right n q r.length i carry (pre ++ m ++ post) = .ok (pre ++ m' ++ post, c) ∧
        m'.length = m.length ∧ (∀ x ∈ m', x < 4294967296) ∧ c < 4294967296 ∧
        lv m + c * 4294967296 ^ r.length = lv m' + q * lv r + carry := by
  intro r
  induction r with
  | nil =>
    intro m dr pre i carry _ _ _ hm _ _ hc
    obtain rfl : m = [] := by simpa using hm
    refine ⟨[], carry, ?_, rfl, by simp, hc, by simp [lv]⟩
    simp [subtractLoop, u32, Nat.mod_eq_of_lt hc]
  | cons x r ih =>
    intro m dr pre i carry hr hd hp hm hxr hxm hc
    obtain ⟨y, m, rfl⟩ : ∃ y m', m = y :: m' := by
      cases m with
      | nil => simp at hm
      | cons y m' => exact ⟨y, m', rfl⟩
    have hx : x < 4294967296 := hxr x (by simp)
    have hy : y < 4294967296 := hxm y (by simp)
    have e1 : rd right i = .ok x := by
      rw [hr, List.append_assoc, List.cons_append]
      exact rd_append _ _ _ _ hd.symm
    have e2 : rd (pre ++ y :: m ++ post) (n + i) = .ok y := by
      rw [List.append_assoc, List.cons_append]
      exact rd_append _ _ _ _ hp.symm
    have hxq : x * q ≤ 4294967295 * 4294967295 := Nat.mul_le_mul (by omega) (by omega)
    have e3 : u64 (carry + u64 (x * q)) = carry + x * q := by
      simp only [u64]; omega
    rw [List.length_cons, subtractLoop, e1, Res.ok_bind, e2, Res.ok_bind, e3]
    obtain ⟨d, hd'⟩ : ∃ d, u32 (carry + x * q) = d := ⟨_, rfl⟩
    obtain ⟨y', hy'⟩ : ∃ y', u32 (y + 4294967296 - d) = y' := ⟨_, rfl⟩
    obtain ⟨c1, hc1⟩ : ∃ c1, (if y < d then u64 ((carry + x * q) / 4294967296 + 1)
        else (carry + x * q) / 4294967296) = c1 := ⟨_, rfl⟩
    have e4 : wr (pre ++ y :: m ++ post) (n + i) y' = .ok ((pre ++ [y']) ++ m ++ post) := by
      rw [List.append_assoc, List.cons_append, wr_append _ _ _ _ _ hp.symm]
      simp
    simp only [hd', hy', hc1, e4, Res.ok_bind]
    have hc1' : c1 < 4294967296 ∧ y + c1 * 4294967296 = y' + x * q + carry ∧ y' < 4294967296 := by
      generalize x * q = P at *
      simp only [u32, u64] at *
      split at hc1 <;> omega
    obtain ⟨m', c, h1, h2, h3, h4, h5⟩ := ih m (dr ++ [x]) (pre ++ [y']) (i + 1) c1 (by simp [hr])
      (by simp [hd]) (by simp [hp]; omega) (by simpa using hm) (fun z hz => hxr z (by simp [hz]))
      (fun z hz => hxm z (by simp [hz])) hc1'.1
    refine ⟨y' :: m', c, ?_, by simp [h2], ?_, h4, ?_⟩
    · rw [h1]; simp
    · intro z hz
      rcases List.mem_cons.1 hz with rfl | hz
      · exact hc1'.2.2
      · exact h3 z hz
    · have := hc1'.2.1
      simp only [lv, Nat.pow_succ]
      have e5 : 4294967296 * (lv m + c * 4294967296 ^ r.length) = 4294967296 * (lv m' + q * lv r + c1) := by
        rw [h5]
      have e6 : c * (4294967296 ^ r.length * 4294967296) = 4294967296 * (c * 4294967296 ^ r.length) := by ring
      have e7 : q * (x + 4294967296 * lv r) = x * q + 4294967296 * (q * lv r) := by ring
      rw [e6, e7]
      generalize c * 4294967296 ^ r.length = A at *
      generalize q * lv r = B at *
      generalize x * q = C at *
      omega

theorem addLoop_eq (right tail : List Nat) (n : Nat) (post : List Nat) :
    ∀ (r m dr pre : List Nat) (i carry : Nat), right = dr ++ r ++ tail → dr.length = i → pre.length = n + i →
      m.length = r.length → (∀ x ∈ r, x < 4294967296) → (∀ x ∈ m, x < 4294967296) → carry ≤ 1 →
      ∃ m' c, addLoop right n r.length i carry (pre ++ m ++ post) = .ok (pre ++ m' ++ post, c) ∧
        m'.length = m.length ∧ (∀ x ∈ m', x < 4294967296) ∧
        lv m + lv r + carry = lv m' + c * 4294967296 ^ r.length := by
  intro r
  induction r with
  | nil =>
    intro m dr pre i carry _ _ _ hm _ _ hc
    obtain rfl : m = [] := by simpa using hm
    refine ⟨[], carry, ?_, rfl, by simp, by simp [lv]⟩
    simp [addLoop, u32]; omega
  | cons x r ih =>
    intro m dr pre i carry hr hd hp hm hxr hxm hc
    obtain ⟨y, m, rfl⟩ : ∃ y m', m = y :: m' := by
      cases m with
      | nil => simp at hm
      | cons y m' => exact ⟨y, m', rfl⟩
    have hx : x < 4294967296 := hxr x (by simp)
    have hy : y < 4294967296 := hxm y (by simp)
    have e1 : rd right i = .ok x := by
      rw [hr, List.append_assoc, List.cons_append]
      exact rd_append _ _ _ _ hd.symm
    have e2 : rd (pre ++ y :: m ++ post) (n + i) = .ok y := by
      rw [List.append_assoc, List.cons_append]
      exact rd_append _ _ _ _ hp.symm
    have e3 : u64 (u64 (y + carry) + x) = y + carry + x := by
      simp only [u64]; omega
    rw [List.length_cons, addLoop, e1, Res.ok_bind, e2, Res.ok_bind, e3]
    obtain ⟨y', hy'⟩ : ∃ y', u32 (y + carry + x) = y' := ⟨_, rfl⟩
    obtain ⟨c1, hc1⟩ : ∃ c1, (y + carry + x) / 4294967296 = c1 := ⟨_, rfl⟩
    have e4 : wr (pre ++ y :: m ++ post) (n + i) y' = .ok ((pre ++ [y']) ++ m ++ post) := by
      rw [List.append_assoc, List.cons_append, wr_append _ _ _ _ _ hp.symm]
      simp
    simp only [hy', hc1, e4, Res.ok_bind]
    have hc1' : c1 ≤ 1 ∧ y + carry + x = y' + c1 * 4294967296 ∧ y' < 4294967296 := by
      simp only [u32] at *
      omega
    obtain ⟨m', c, h1, h2, h3, h5⟩ := ih m (dr ++ [x]) (pre ++ [y']) (i + 1) c1 (by simp [hr])
      (by simp [hd]) (by simp [hp]; omega) (by simpa using hm) (fun z hz => hxr z (by simp [hz]))
      (fun z hz => hxm z (by simp [hz])) hc1'.1
    refine ⟨y' :: m', c, ?_, by simp [h2], ?_, ?_⟩
    · rw [h1]; simp
    · intro z hz
      rcases List.mem_cons.1 hz with rfl | hz
      · exact hc1'.2.2
      · exact h3 z hz
    · have := hc1'.2.1
      simp only [lv, Nat.pow_succ]
      have e6 : c * (4294967296 ^ r.length * 4294967296) = 4294967296 * (c * 4294967296 ^ r.length) := by ring
      rw [e6]
      generalize c * 4294967296 ^ r.length = A at *
      omega

/-- One digit: subtracting a guess that is at most one too large, with correction. -/
theorem applyDigit_eq (right pre mid post r tail : List Nat) (n ls t q : Nat)
    (hr : right = r ++ tail) (hpre : pre.length = n) (hmid : mid.length = r.length)
    (hxr : ∀ x ∈ r, x < 4294967296) (hxm : ∀ x ∈ mid, x < 4294967296) (ht : t < 4294967296)
    (hls : n + r.length ≤ ls) (hq : q < 4294967296) (hD : 0 < lv r)
    (hlo : (lv mid + t * 4294967296 ^ r.length) / lv r ≤ q)
    (hhi : q ≤ (lv mid + t * 4294967296 ^ r.length) / lv r + 1) :
    ∃ mid', applyDigit (pre ++ mid ++ post) n ls right r.length t q =
        .ok (pre ++ mid' ++ post, (lv mid + t * 4294967296 ^ r.length) / lv r) ∧
      mid'.length = r.length ∧ (∀ x ∈ mid', x < 4294967296) ∧
      lv mid' = (lv mid + t * 4294967296 ^ r.length) % lv r := by
  have hdm := Nat.div_add_mod (lv mid + t * 4294967296 ^ r.length) (lv r)
  have hml := Nat.mod_lt (lv mid + t * 4294967296 ^ r.length) hD
  have hrl := lv_lt r hxr
  have hmml := lv_lt mid hxm
  rw [hmid] at hmml
  obtain ⟨Q, hQ⟩ : ∃ Q, (lv mid + t * 4294967296 ^ r.length) / lv r = Q := ⟨_, rfl⟩
  obtain ⟨R, hR⟩ : ∃ R, (lv mid + t * 4294967296 ^ r.length) % lv r = R := ⟨_, rfl⟩
  rw [hQ] at hlo hhi hdm ⊢
  rw [hR] at hdm hml ⊢
  have hBpos : 0 < 4294967296 ^ r.length := Nat.pow_pos (by norm_num)
  unfold applyDigit
  by_cases hq0 : q > 0
  · rw [if_pos hq0, subtractDivisor, if_neg (by omega)]
    obtain ⟨m', c, h1, h2, h3, h4, h5⟩ := subtractLoop_eq right tail n q hq post r mid [] pre 0 0
      (by simp [hr]) rfl (by simp [hpre]) hmid hxr hxm (by norm_num)
    have hm'l := lv_lt m' h3
    rw [h2, hmid] at hm'l
    rw [h1, Res.ok_bind]
    dsimp only
    obtain ⟨B, hB⟩ : ∃ B, 4294967296 ^ r.length = B := ⟨_, rfl⟩
    rw [hB] at h5 hdm hrl hmml hBpos hm'l
    by_cases hqq : q = Q
    · subst hqq
      have hct : c = t ∧ lv m' = R := by
        have e : R + c * B = lv m' + t * B := by
          rw [Nat.mul_comm q] at h5; omega
        have hRB : R < B := by omega
        have e1 : c = t := by
          have := congrArg (· / B) e
          simpa [Nat.add_mul_div_right _ _ hBpos, Nat.div_eq_of_lt hRB, Nat.div_eq_of_lt hm'l] using this
        subst e1
        exact ⟨rfl, by omega⟩
      rw [if_neg (by simp [hct.1])]
      exact ⟨m', rfl, by omega, h3, hct.2⟩
    · obtain rfl : q = Q + 1 := by omega
      have e : R + c * B = lv m' + lv r + t * B := by
        have : (Q + 1) * lv r = lv r * Q + lv r := by ring
        omega
      have hct : c = t + 1 := by
        rcases Nat.lt_trichotomy c (t + 1) with h | h | h
        · have : c * B ≤ t * B := Nat.mul_le_mul_right _ (by omega)
          omega
        · exact h
        · have : (t + 2) * B ≤ c * B := Nat.mul_le_mul_right _ (by omega)
          have : (t + 2) * B = t * B + 2 * B := by ring
          omega
      rw [if_pos (by omega), if_neg (by simp only [u32]; omega), addDivisor, if_neg (by omega)]
      obtain ⟨m'', c', g1, g2, g3, g4⟩ := addLoop_eq right tail n post r m' [] pre 0 0
        (by simp [hr]) rfl (by simp [hpre]) (by omega) hxr h3 (by norm_num)
      have hm''l := lv_lt m'' g3
      rw [g2, h2, hmid, hB] at hm''l
      rw [hB] at g4
      have hsum : lv m' + lv r = B + R := by
        subst hct
        have : (t + 1) * B = t * B + B := by ring
        omega
      have hc' : c' = 1 ∧ lv m'' = R := by
        have e2 : R + 1 * B = lv m'' + c' * B := by omega
        have hRB : R < B := by omega
        have e1 : 1 = c' := by
          have := congrArg (· / B) e2
          simpa [Nat.add_mul_div_right _ _ hBpos, Nat.div_eq_of_lt hRB, Nat.div_eq_of_lt hm''l,
            Nat.add_div_right _ hBpos] using this
        subst e1
        exact ⟨rfl, by omega⟩
      rw [g1, Res.ok_bind]
      dsimp only
      rw [if_neg (by simp [hc'.1])]
      exact ⟨m'', by simp, by omega, g3, hc'.2⟩
  · obtain rfl : q = 0 := by omega
    obtain rfl : Q = 0 := by omega
    rw [if_neg hq0]
    have ht0 : t = 0 := by
      rcases Nat.eq_zero_or_pos t with h | h
      · exact h
      · have : 1 * 4294967296 ^ r.length ≤ t * 4294967296 ^ r.length := Nat.mul_le_mul_right _ h
        omega
    subst ht0
    exact ⟨mid, rfl, hmid, hxm, by simp at hdm; omega⟩

/-- The guess is the largest `q < 2^32` with `q * T ≤ V`. -/
theorem guessTooBig_eq (q vh vl dh dl : Nat) (hq : q < 4294967296) (hvl : vl < 4294967296)
    (hdh : dh < 4294967296) (hdl : dl < 4294967296) :
    guessTooBig q vh vl dh dl = .ok (decide (vh * 4294967296 + vl < (dh * 4294967296 + dl) * q)) := by
  have h1 : dh * q ≤ 4294967295 * 4294967295 := Nat.mul_le_mul (by omega) (by omega)
  have h2 : dl * q ≤ 4294967295 * 4294967295 := Nat.mul_le_mul (by omega) (by omega)
  have e : (dh * 4294967296 + dl) * q = dh * q * 4294967296 + dl * q := by ring
  rw [guessTooBig, if_neg (by omega), e]
  generalize dh * q = X at *
  generalize dl * q = Y at *
  dsimp only
  rw [Res.ok.injEq, Bool.eq_iff_iff, Bool.or_eq_true, Bool.and_eq_true, decide_eq_true_iff, decide_eq_true_iff,
    decide_eq_true_iff, decide_eq_true_iff]
  simp only [u64, u32]
  clear e
  omega

theorem guessLoop_eq (vh vl dh dl : Nat) (hvl : vl < 4294967296)
    (hdh : dh < 4294967296) (hdl : dl < 4294967296) :
    ∀ (fuel q : Nat), q < fuel → q < 4294967296 →
      ∃ r, guessLoop vh vl dh dl fuel q = .ok r ∧ r ≤ q ∧
        (dh * 4294967296 + dl) * r ≤ vh * 4294967296 + vl ∧
        (r = q ∨ vh * 4294967296 + vl < (dh * 4294967296 + dl) * (r + 1)) := by
  intro fuel
  induction fuel with
  | zero => intro q h; omega
  | succ fuel ih =>
    intro q h hq
    rw [guessLoop, guessTooBig_eq q vh vl dh dl hq hvl hdh hdl, Res.ok_bind]
    by_cases hb : vh * 4294967296 + vl < (dh * 4294967296 + dl) * q
    · rw [if_pos (by simpa using hb)]
      have hq0 : q ≠ 0 := by rintro rfl; simp at hb
      have e : u64 (q + 18446744073709551615) = q - 1 := by simp only [u64]; omega
      rw [e]
      obtain ⟨r, h1, h2, h3, h4⟩ := ih (q - 1) (by omega) (by omega)
      refine ⟨r, h1, by omega, h3, Or.inr ?_⟩
      rcases h4 with h4 | h4
      · rw [h4, Nat.sub_add_cancel (by omega)]; exact hb
      · exact h4
    · rw [if_neg (by simpa using hb)]
      exact ⟨q, rfl, Nat.le_refl _, by omega, Or.inl rfl⟩

theorem guessDigit_eq (vh vl dh dl : Nat) (hvl : vl < 4294967296)
    (hdh : dh < 4294967296) (hdl : dl < 4294967296) (hd0 : 0 < dh) :
    ∃ r, guessDigit vh vl dh dl = .ok r ∧ r < 4294967296 ∧
      (dh * 4294967296 + dl) * r ≤ vh * 4294967296 + vl ∧
      ∀ q, q < 4294967296 → (dh * 4294967296 + dl) * q ≤ vh * 4294967296 + vl → q ≤ r := by
  rw [guessDigit, if_neg (by omega)]
  dsimp only
  obtain ⟨d, hd⟩ : ∃ d, (if vh / dh > 0xFFFFFFFF then 0xFFFFFFFF else vh / dh) = d := ⟨_, rfl⟩
  rw [hd]
  have hd' : d < 4294967296 := by split at hd <;> omega
  obtain ⟨r, h1, h2, h3, h4⟩ := guessLoop_eq vh vl dh dl hvl hdh hdl (0x100000000 + 1) d (by omega) hd'
  refine ⟨r, h1, by omega, h3, ?_⟩
  intro q hq hqv
  rcases h4 with rfl | h4
  · have : q ≤ vh / dh := by
      rw [Nat.le_div_iff_mul_le hd0]
      have e : (dh * 4294967296 + dl) * q = q * dh * 4294967296 + dl * q := by ring
      rw [e] at hqv
      omega
    split at hd <;> omega
  · by_contra hlt
    have : (dh * 4294967296 + dl) * (r + 1) ≤ (dh * 4294967296 + dl) * q := Nat.mul_le_mul_left _ (by omega)
    omega

/-- The guess from the leading limbs is the quotient digit or one more. -/
theorem guess_bounds (F D V T q σ bi brs bn : Nat) (hbi : bi = brs * bn) (hbrs : 0 < brs) (hbn : 0 < bn)
    (hD : 0 < D)
    (hV1 : V * bi ≤ F * σ * 18446744073709551616) (hV2 : F * σ * 18446744073709551616 < (V + 1) * bi)
    (hT1 : T * brs ≤ D * σ * 18446744073709551616) (hT2 : D * σ * 18446744073709551616 < (T + 1) * brs)
    (hT : 4294967296 ≤ T) (hq : q < 4294967296) (hq1 : T * q ≤ V)
    (hq2 : ∀ q', q' < 4294967296 → T * q' ≤ V → q' ≤ q) (hF : F < D * bn * 4294967296) :
    F / (D * bn) ≤ q ∧ q ≤ F / (D * bn) + 1 := by
  have hDbn : 0 < D * bn := Nat.mul_pos hD hbn
  have hbipos : 0 < bi := by rw [hbi]; exact Nat.mul_pos hbrs hbn
  obtain ⟨Q, hQ⟩ : ∃ Q, F / (D * bn) = Q := ⟨_, rfl⟩
  rw [hQ]
  have hQ1 : Q * (D * bn) ≤ F := by rw [← hQ]; exact Nat.div_mul_le_self _ _
  have hQ2 : F < (Q + 1) * (D * bn) := by
    rw [← hQ]; have := Nat.lt_div_mul_add (a := F) hDbn; rw [Nat.add_mul]; omega
  constructor
  · apply hq2
    · rw [← hQ, Nat.div_lt_iff_lt_mul hDbn, Nat.mul_comm]; exact hF
    · have h1 : (T * Q) * bi < (V + 1) * bi := by
        calc (T * Q) * bi = Q * (T * brs) * bn := by rw [hbi]; ring
          _ ≤ Q * (D * σ * 18446744073709551616) * bn :=
              Nat.mul_le_mul_right _ (Nat.mul_le_mul_left _ hT1)
          _ = Q * (D * bn) * σ * 18446744073709551616 := by ring
          _ ≤ F * σ * 18446744073709551616 := Nat.mul_le_mul_right _ (Nat.mul_le_mul_right _ hQ1)
          _ < (V + 1) * bi := hV2
      exact Nat.lt_succ_iff.1 (Nat.lt_of_mul_lt_mul_right h1)
  · by_contra hcon
    have hq' : Q + 2 ≤ q := by omega
    have h1 : T * (Q + 2) * bi < (Q + 1) * (T + 1) * bi := by
      calc T * (Q + 2) * bi ≤ T * q * bi := Nat.mul_le_mul_right _ (Nat.mul_le_mul_left _ hq')
        _ ≤ V * bi := Nat.mul_le_mul_right _ hq1
        _ ≤ F * σ * 18446744073709551616 := hV1
        _ ≤ ((Q + 1) * (D * bn)) * σ * 18446744073709551616 :=
            Nat.mul_le_mul_right _ (Nat.mul_le_mul_right _ (Nat.le_of_lt hQ2))
        _ = (Q + 1) * bn * (D * σ * 18446744073709551616) := by ring
        _ < (Q + 1) * bn * ((T + 1) * brs) := by
            apply Nat.mul_lt_mul_of_pos_left hT2
            exact Nat.mul_pos (by omega) hbn
        _ = (Q + 1) * (T + 1) * bi := by rw [hbi]; ring
    have h2 := Nat.lt_of_mul_lt_mul_right h1
    have e1 : T * (Q + 2) = T * Q + 2 * T := by ring
    have e2 : (Q + 1) * (T + 1) = T * Q + Q + T + 1 := by ring
    omega

end U128
end Ip
