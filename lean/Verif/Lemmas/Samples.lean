import Verif.Model.Net
import Verif.Lemmas.V6Scope
/-
Concrete objects used in the examples beside the theorems: they show that the hypotheses can be met.
-/
set_option autoImplicit false

namespace Ip
open Spec

/-- A configuration used in the examples. -/
def exCfg : Cfg := ⟨true, false, 16, true, fun c => c.toNat, fun c => BitVec.ofNat 64 c.toNat⟩

/-- Its characters have different values. -/
theorem exCfg_val : ∀ x y, exCfg.val x = exCfg.val y → x = y := fun _ _ h => Char.toNat_inj.mp (Int.ofNat_inj.mp h)

/-- A conversion of characters to words of at least 21 bits loses nothing. -/
theorem char_word_inj (w : Nat) (hw : 21 ≤ w) (x y : Char) (h : BitVec.ofNat w x.toNat = BitVec.ofNat w y.toNat) : x = y := by
  have p : 2 ^ 21 ≤ 2 ^ w := Nat.pow_le_pow_right (by decide) hw
  have b : ∀ c : Char, c.toNat < 2 ^ 21 := fun c => by
    have := c.valid
    change c.val.toNat.isValidChar at this
    change c.val.toNat < _
    unfold Nat.isValidChar at this
    omega
  have hx := b x
  have hy := b y
  have := congrArg BitVec.toNat h
  simp only [BitVec.toNat_ofNat] at this
  rw [Nat.mod_eq_of_lt (by omega), Nat.mod_eq_of_lt (by omega)] at this
  exact Char.toNat_inj.mp this

theorem exCfg_conv : ∀ x y, exCfg.conv x = exCfg.conv y → x = y := char_word_inj 64 (by decide)

/-- The IPv6 address `fe80::1%a`. -/
def exScoped : V6 := ⟨[0xfe, 0x80, 0, 0, 0, 0, 0, 0, 0, 0, 0, 0, 0, 0, 0, 1], ⟨'a' :: List.replicate 15 '\x00', 1⟩⟩

theorem exScoped_ok : exScoped.WF 16 := ⟨rfl, by simp [FStr.WF, exScoped], by simp [exScoped]⟩

theorem exScoped_good : exScoped.Good false 16 := ⟨exScoped_ok, by unfold ZoneOk; decide, by decide⟩

/-- The IPv6 address `2001:db8::1`. -/
def exDoc : V6 := ⟨[0x20, 1, 0xd, 0xb8, 0, 0, 0, 0, 0, 0, 0, 0, 0, 0, 0, 1], emptyScope 16⟩

theorem exDoc_ok : exDoc.WF 16 := ⟨rfl, by simp [FStr.WF, exDoc, emptyScope], by simp [exDoc, emptyScope]⟩

theorem exDoc_good : exDoc.Good false 16 := ⟨exDoc_ok, by unfold ZoneOk; decide, by decide⟩

end Ip
