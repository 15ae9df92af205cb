import Verif.Props.Rest
/-
C37, the operators of reverse iterators other than `*`, `++` and `==`.
-/
set_option autoImplicit false

namespace Ip
open Spec

theorem back_mod (p d W : Nat) (hd : d ≤ 2 * W) :
    ((((p + (2 * W - d)) % (2 * W)) % W : Nat) : Int) = (((p % W : Nat) : Int) - d) % W := by
  rw [Nat.mod_mod_of_dvd _ ⟨2, by omega⟩]
  push_cast [Nat.cast_sub hd]
  rw [Int.emod_sub_emod, show (p : Int) + (2 * W - d) = p - d + W * 2 by ring, Int.add_mul_emod_self_left]

theorem forth_mod (p d W : Nat) : ((((p + d) % (2 * W)) % W : Nat) : Int) = (((p % W : Nat) : Int) + d) % W := by
  rw [Nat.mod_mod_of_dvd _ ⟨2, by omega⟩]
  push_cast
  rw [Int.emod_add_emod]

section
variable {I V U : Type} {O : IterOps I V U} {good : I → Prop} {pos : I → Nat} {M s : Nat} {dist : U → Nat}
  {found : Nat → V → Prop}

/-- The operators of a reverse iterator move its iterator the other way. -/
theorem IterLaw.r_ops (L : IterLaw O good pos M s dist found) (x : I) (hx : good x) (n : U) :
    ∃ r y z i j, O.rMk x = .ok r ∧ O.rAdd r n = .ok y ∧ O.rSub y n = .ok r ∧ O.rSub r n = .ok z ∧ O.rAdd z n = .ok r ∧
      O.rInc r = .ok i ∧ O.rDec i = .ok r ∧ O.rDec r = .ok j ∧ O.rInc j = .ok r ∧ O.rAt r n = .ok (O.rDeref y) ∧
      good r.it ∧ good y.it ∧ good z.it ∧ good i.it ∧ good j.it ∧ pos r.it = (pos x + (M - s)) % M ∧
      pos y.it = (pos r.it + (M - dist n)) % M ∧ pos z.it = (pos r.it + dist n) % M ∧
      pos i.it = (pos r.it + (M - s)) % M ∧ j.it = x := by
  obtain ⟨r, r1, r2, r3⟩ := L.reverse x hx
  obtain ⟨y, y1, y2, y3⟩ := L.sub r n r2
  obtain ⟨z, z1, z2, z3⟩ := L.add r n r2
  obtain ⟨i, i1, i2, i3⟩ := L.dec r r2
  obtain ⟨y', y1', y2', y3'⟩ := L.add y n y2
  obtain ⟨z', z1', z2', z3'⟩ := L.sub z n z2
  obtain ⟨i', i1', i2', i3'⟩ := L.inc i i2
  obtain ⟨j, j1, j2, j3⟩ := L.inc r r2
  obtain ⟨j', j1', j2', j3'⟩ := L.dec j j2
  have hlr := L.pos_lt r r2
  have ey : y' = r := L.inj _ _ y2' r2 (by rw [y3', y3, mod_sub_add_cancel _ _ _ hlr (L.dist_le n)])
  have ez : z' = r := L.inj _ _ z2' r2 (by rw [z3', z3, mod_add_sub_cancel _ _ _ hlr (L.dist_le n)])
  have ei : i' = r := L.inj _ _ i2' r2 (by rw [i3', i3, mod_sub_add_cancel _ _ _ hlr L.s_le])
  have ej' : j' = r := L.inj _ _ j2' r2 (by rw [j3', j3, mod_add_sub_cancel _ _ _ hlr L.s_le])
  have ej : j = x := L.inj _ _ j2 hx (by rw [j3, r3, mod_sub_add_cancel _ _ _ (L.pos_lt x hx) L.s_le])
  rw [ey] at y1'
  rw [ez] at z1'
  rw [ei] at i1'
  rw [ej'] at j1'
  refine ⟨⟨r⟩, ⟨y⟩, ⟨z⟩, ⟨i⟩, ⟨j⟩, ?_, ?_, ?_, ?_, ?_, ?_, ?_, ?_, ?_, ?_, r2, y2, z2, i2, j2, r3, y3, z3, i3, ej⟩ <;>
    simp only [IterOps.rMk, IterOps.rAdd, IterOps.rSub, IterOps.rInc, IterOps.rDec, IterOps.rAt, IterOps.rDeref, r1, y1, z1,
        i1, y1', z1', i1', j1, j1', Res.ok_bind]

end

section
variable {A U : Type} {F : Fam A U} {WF : A → Prop} {val : U → Nat}

theorem diff_of_back (L : F.Law WF val) (r y : AIter A U) (d : Nat) (hd : d < 2 ^ F.maxPrefix)
    (h : y.pos F val = (r.pos F val + (2 * 2 ^ F.maxPrefix - d)) % (2 * 2 ^ F.maxPrefix)) :
    (F.aiDiff r y).toNat = d % 2 ^ 64 := by
  have h' : r.pos F val = (y.pos F val + d) % (2 * 2 ^ F.maxPrefix) := by
    rw [h, mod_sub_add_cancel _ _ _ (AIter.pos_lt L r) (by omega)]
  have ho := off_of_pos L y r _ h'
  have hv : val (F.ops.sub r.off y.off) = d := by
    have h1 := L.ops.val_lt y.off
    have h2 := L.ops.val_lt r.off
    rw [L.ops.sub, ho]
    rw [add_mod_if _ _ _ h1 (by omega)]
    split
    · rw [show val y.off + d + (2 ^ F.maxPrefix - val y.off) = d + 2 ^ F.maxPrefix by omega, Nat.add_mod_right, Nat.mod_eq_of_lt hd]
    · rw [show val y.off + d - 2 ^ F.maxPrefix + (2 ^ F.maxPrefix - val y.off) = d by omega, Nat.mod_eq_of_lt hd]
  rw [Fam.aiDiff, L.ops.toI64, hv]

theorem r_addresses (L : F.Law WF val) (x : AIter A U) (hx : x.Ok F val) (n : U) :
    ∃ r y z i j, F.aiOps.rMk x = .ok r ∧ F.aiOps.rAdd r n = .ok y ∧ F.aiOps.rSub y n = .ok r ∧ F.aiOps.rSub r n = .ok z ∧
      F.aiOps.rAdd z n = .ok r ∧ F.aiOps.rInc r = .ok i ∧ F.aiOps.rDec i = .ok r ∧ F.aiOps.rDec r = .ok j ∧ F.aiOps.rInc j = .ok r ∧
      F.aiOps.rAt r n = .ok (F.aiOps.rDeref y) ∧
      (F.v (F.aiOps.rDeref r) : Int) = ((F.v x.cur : Int) - 1) % 2 ^ F.maxPrefix ∧
      (F.v (F.aiOps.rDeref y) : Int) = ((F.v x.cur : Int) - 1 - val n) % 2 ^ F.maxPrefix ∧
      (F.v (F.aiOps.rDeref z) : Int) = ((F.v x.cur : Int) - 1 + val n) % 2 ^ F.maxPrefix ∧
      (F.v (F.aiOps.rDeref i) : Int) = ((F.v x.cur : Int) - 2) % 2 ^ F.maxPrefix ∧
      F.aiOps.rDeref j = x.cur ∧ (F.aiOps.rDiff y r).toNat = val n % 2 ^ 64 := by
  obtain ⟨r, y, z, i, j, h1, h2, h3, h4, h5, h6, h7, h8, h9, h10, gr, gy, gz, gi, gj, pr, py, pz, pi, ej⟩ := (aiLaw L).r_ops x hx n
  have hW := Nat.two_pow_pos F.maxPrefix
  have hn := L.ops.val_lt n
  have hv : ∀ t : AIter A U, t.Ok F val → F.v t.cur = t.pos F val % 2 ^ F.maxPrefix := fun t ht => by
    rw [AIter.pos_mod L t]; exact ht.cur.v_eq L
  have c1 : (F.v r.it.cur : Int) = ((F.v x.cur : Int) - 1) % 2 ^ F.maxPrefix := by
    rw [hv _ gr, hv _ hx, pr]
    have := back_mod (x.pos F val) 1 (2 ^ F.maxPrefix) (by omega)
    push_cast at this ⊢
    exact this
  refine ⟨r, y, z, i, j, h1, h2, h3, h4, h5, h6, h7, h8, h9, h10, c1, ?_, ?_, ?_, ?_, ?_⟩
  · have := back_mod (r.it.pos F val) (val n) (2 ^ F.maxPrefix) (by omega)
    rw [← py, ← hv _ gy, ← hv _ gr] at this
    show (F.v y.it.cur : Int) = _
    rw [this, c1]; push_cast
    rw [Int.emod_sub_emod]
  · have := forth_mod (r.it.pos F val) (val n) (2 ^ F.maxPrefix)
    rw [← pz, ← hv _ gz, ← hv _ gr] at this
    show (F.v z.it.cur : Int) = _
    rw [this, c1]; push_cast
    rw [Int.emod_add_emod]
  · have := back_mod (r.it.pos F val) 1 (2 ^ F.maxPrefix) (by omega)
    rw [← pi, ← hv _ gi, ← hv _ gr] at this
    show (F.v i.it.cur : Int) = _
    rw [this, c1]; push_cast
    rw [Int.emod_sub_emod]
    congr 1; ring
  · show j.it.cur = x.cur
    rw [ej]
  · exact diff_of_back L _ _ _ hn py

theorem r_networks (L : F.Law WF val) (step : U) (p : Nat) (hs : val step % 2 ^ (F.maxPrefix - p) = 0) (x : NIter A U)
    (hx : x.Ok F val step p) (n : U) :
    ∃ r y z i j, F.niOps.rMk x = .ok r ∧ F.niOps.rAdd r n = .ok y ∧ F.niOps.rSub y n = .ok r ∧ F.niOps.rSub r n = .ok z ∧
      F.niOps.rAdd z n = .ok r ∧ F.niOps.rInc r = .ok i ∧ F.niOps.rDec i = .ok r ∧ F.niOps.rDec r = .ok j ∧ F.niOps.rInc j = .ok r ∧
      F.niOps.rAt r n = .ok (F.niOps.rDeref y) ∧
      (F.v (F.niOps.rDeref r).addr : Int) = ((F.v x.cur.addr : Int) - val step) % 2 ^ F.maxPrefix ∧
      (F.v (F.niOps.rDeref y).addr : Int) = ((F.v x.cur.addr : Int) - val step - val step * val n) % 2 ^ F.maxPrefix ∧
      (F.v (F.niOps.rDeref z).addr : Int) = ((F.v x.cur.addr : Int) - val step + val step * val n) % 2 ^ F.maxPrefix ∧
      (F.v (F.niOps.rDeref i).addr : Int) = ((F.v x.cur.addr : Int) - 2 * val step) % 2 ^ F.maxPrefix ∧
      (F.niOps.rDeref r).plen = p ∧ (F.niOps.rDeref y).plen = p ∧ (F.niOps.rDeref z).plen = p ∧ (F.niOps.rDeref i).plen = p ∧
      F.niOps.rDeref j = x.cur ∧ (F.niOps.rDiff y r).toNat = val step * val n % 2 ^ F.maxPrefix % 2 ^ 64 := by
  obtain ⟨r, y, z, i, j, h1, h2, h3, h4, h5, h6, h7, h8, h9, h10, gr, gy, gz, gi, gj, pr, py, pz, pi, ej⟩ :=
    (niLaw L step p hs).r_ops x hx n
  have hW := Nat.two_pow_pos F.maxPrefix
  have hst := L.ops.val_lt step
  have hn := Nat.mod_lt (val step * val n) hW
  have hv : ∀ t : NIter A U, t.Ok F val step p → F.v t.cur.addr = t.pos F val % 2 ^ F.maxPrefix := fun t ht => by
    have := AIter.pos_mod L t.it
    show _ = t.it.pos F val % _
    rw [this]; exact ht.cur.v_eq L
  have c1 : (F.v r.it.cur.addr : Int) = ((F.v x.cur.addr : Int) - val step) % 2 ^ F.maxPrefix := by
    rw [hv _ gr, hv _ hx, pr]
    have := back_mod (x.pos F val) (val step) (2 ^ F.maxPrefix) (by omega)
    push_cast at this ⊢
    exact this
  refine ⟨r, y, z, i, j, h1, h2, h3, h4, h5, h6, h7, h8, h9, h10, c1, ?_, ?_, ?_, gr.cur.plen, gy.cur.plen, gz.cur.plen, gi.cur.plen, ?_, ?_⟩
  · have := back_mod (r.it.pos F val) (val step * val n % 2 ^ F.maxPrefix) (2 ^ F.maxPrefix) (by omega)
    rw [← py, ← hv _ gy, ← hv _ gr] at this
    show (F.v y.it.cur.addr : Int) = _
    rw [this, c1]; push_cast
    rw [Int.emod_sub_emod, Int.sub_emod_emod]
  · have := forth_mod (r.it.pos F val) (val step * val n % 2 ^ F.maxPrefix) (2 ^ F.maxPrefix)
    rw [← pz, ← hv _ gz, ← hv _ gr] at this
    show (F.v z.it.cur.addr : Int) = _
    rw [this, c1]; push_cast
    rw [Int.emod_add_emod, Int.add_emod_emod]
  · have := back_mod (r.it.pos F val) (val step) (2 ^ F.maxPrefix) (by omega)
    rw [← pi, ← hv _ gi, ← hv _ gr] at this
    show (F.v i.it.cur.addr : Int) = _
    rw [this, c1]; push_cast
    rw [Int.emod_sub_emod]
    congr 1; ring
  · show j.it.cur = x.cur
    rw [ej]
  · exact diff_of_back L _ _ _ hn py

end

/-- C37, IPv4 addresses: with `r` the reverse iterator of `x`, `*r` is the address before that of `x`, `*(r + n)` and
`r[n]` the one `n` before `*r`, `*(r - n)` the one `n` after; `++` and `--`, `+ n` and `- n` undo each other;
`(r + n) - r` is `n` as a signed 64-bit number. -/
theorem C37_operations_v4 (x : AIter (List (BitVec 8)) (BitVec 32)) (hx : x.Ok (fam4 true) BitVec.toNat) (n : BitVec 32) :
    ∃ r y z i j, (fam4 true).aiOps.rMk x = .ok r ∧ (fam4 true).aiOps.rAdd r n = .ok y ∧ (fam4 true).aiOps.rSub y n = .ok r ∧
      (fam4 true).aiOps.rSub r n = .ok z ∧ (fam4 true).aiOps.rAdd z n = .ok r ∧ (fam4 true).aiOps.rInc r = .ok i ∧
      (fam4 true).aiOps.rDec i = .ok r ∧ (fam4 true).aiOps.rDec r = .ok j ∧ (fam4 true).aiOps.rInc j = .ok r ∧
      (fam4 true).aiOps.rAt r n = .ok ((fam4 true).aiOps.rDeref y) ∧
      (beValue ((fam4 true).aiOps.rDeref r) : Int) = ((beValue x.cur : Int) - 1) % 2 ^ 32 ∧
      (beValue ((fam4 true).aiOps.rDeref y) : Int) = ((beValue x.cur : Int) - 1 - n.toNat) % 2 ^ 32 ∧
      (beValue ((fam4 true).aiOps.rDeref z) : Int) = ((beValue x.cur : Int) - 1 + n.toNat) % 2 ^ 32 ∧
      (beValue ((fam4 true).aiOps.rDeref i) : Int) = ((beValue x.cur : Int) - 2) % 2 ^ 32 ∧
      (fam4 true).aiOps.rDeref j = x.cur ∧ ((fam4 true).aiOps.rDiff y r).toNat = n.toNat % 2 ^ 64 :=
  r_addresses fam4Law x hx n

example := C37_operations_v4 exIt4 exIt4_ok 7

/-- C37, IPv6 addresses. -/
theorem C37_operations_v6 (c : Cfg) (hc : c.le = true) (x : AIter V6 U128) (hx : x.Ok (fam6 c) U128.val) (n : U128) :
    ∃ r y z i j, (fam6 c).aiOps.rMk x = .ok r ∧ (fam6 c).aiOps.rAdd r n = .ok y ∧ (fam6 c).aiOps.rSub y n = .ok r ∧
      (fam6 c).aiOps.rSub r n = .ok z ∧ (fam6 c).aiOps.rAdd z n = .ok r ∧ (fam6 c).aiOps.rInc r = .ok i ∧
      (fam6 c).aiOps.rDec i = .ok r ∧ (fam6 c).aiOps.rDec r = .ok j ∧ (fam6 c).aiOps.rInc j = .ok r ∧
      (fam6 c).aiOps.rAt r n = .ok ((fam6 c).aiOps.rDeref y) ∧
      (beValue ((fam6 c).aiOps.rDeref r).bytes : Int) = ((beValue x.cur.bytes : Int) - 1) % 2 ^ 128 ∧
      (beValue ((fam6 c).aiOps.rDeref y).bytes : Int) = ((beValue x.cur.bytes : Int) - 1 - n.val) % 2 ^ 128 ∧
      (beValue ((fam6 c).aiOps.rDeref z).bytes : Int) = ((beValue x.cur.bytes : Int) - 1 + n.val) % 2 ^ 128 ∧
      (beValue ((fam6 c).aiOps.rDeref i).bytes : Int) = ((beValue x.cur.bytes : Int) - 2) % 2 ^ 128 ∧
      (fam6 c).aiOps.rDeref j = x.cur ∧ ((fam6 c).aiOps.rDiff y r).toNat = n.val % 2 ^ 64 :=
  r_addresses (fam6Law c hc) x hx n

example := C37_operations_v6 exCfg rfl exIt6 exIt6_ok ⟨1, 7⟩

/-- C37, IPv4 networks of prefix length `p` with a step that is a multiple of their size: the same with steps of `step`
addresses; the difference of two iterators is that of the addresses. -/
theorem C37_operations_net4 (step : BitVec 32) (p : Nat) (hs : step.toNat % 2 ^ (32 - p) = 0)
    (x : NIter (List (BitVec 8)) (BitVec 32)) (hx : x.Ok (fam4 true) BitVec.toNat step p) (n : BitVec 32) :
    ∃ r y z i j, (fam4 true).niOps.rMk x = .ok r ∧ (fam4 true).niOps.rAdd r n = .ok y ∧ (fam4 true).niOps.rSub y n = .ok r ∧
      (fam4 true).niOps.rSub r n = .ok z ∧ (fam4 true).niOps.rAdd z n = .ok r ∧ (fam4 true).niOps.rInc r = .ok i ∧
      (fam4 true).niOps.rDec i = .ok r ∧ (fam4 true).niOps.rDec r = .ok j ∧ (fam4 true).niOps.rInc j = .ok r ∧
      (fam4 true).niOps.rAt r n = .ok ((fam4 true).niOps.rDeref y) ∧
      (beValue ((fam4 true).niOps.rDeref r).addr : Int) = ((beValue x.cur.addr : Int) - step.toNat) % 2 ^ 32 ∧
      (beValue ((fam4 true).niOps.rDeref y).addr : Int) = ((beValue x.cur.addr : Int) - step.toNat - step.toNat * n.toNat) % 2 ^ 32 ∧
      (beValue ((fam4 true).niOps.rDeref z).addr : Int) = ((beValue x.cur.addr : Int) - step.toNat + step.toNat * n.toNat) % 2 ^ 32 ∧
      (beValue ((fam4 true).niOps.rDeref i).addr : Int) = ((beValue x.cur.addr : Int) - 2 * step.toNat) % 2 ^ 32 ∧
      ((fam4 true).niOps.rDeref r).plen = p ∧ ((fam4 true).niOps.rDeref y).plen = p ∧ ((fam4 true).niOps.rDeref z).plen = p ∧
      ((fam4 true).niOps.rDeref i).plen = p ∧ (fam4 true).niOps.rDeref j = x.cur ∧
      ((fam4 true).niOps.rDiff y r).toNat = step.toNat * n.toNat % 2 ^ 32 % 2 ^ 64 :=
  r_networks fam4Law step p hs x hx n

example := C37_operations_net4 0x100 24 (by decide) exNetIt4 exNetIt4_ok 7

/-- C37, IPv6 networks. -/
theorem C37_operations_net6 (c : Cfg) (hc : c.le = true) (step : U128) (p : Nat) (hs : step.val % 2 ^ (128 - p) = 0)
    (x : NIter V6 U128) (hx : x.Ok (fam6 c) U128.val step p) (n : U128) :
    ∃ r y z i j, (fam6 c).niOps.rMk x = .ok r ∧ (fam6 c).niOps.rAdd r n = .ok y ∧ (fam6 c).niOps.rSub y n = .ok r ∧
      (fam6 c).niOps.rSub r n = .ok z ∧ (fam6 c).niOps.rAdd z n = .ok r ∧ (fam6 c).niOps.rInc r = .ok i ∧
      (fam6 c).niOps.rDec i = .ok r ∧ (fam6 c).niOps.rDec r = .ok j ∧ (fam6 c).niOps.rInc j = .ok r ∧
      (fam6 c).niOps.rAt r n = .ok ((fam6 c).niOps.rDeref y) ∧
      (beValue ((fam6 c).niOps.rDeref r).addr.bytes : Int) = ((beValue x.cur.addr.bytes : Int) - step.val) % 2 ^ 128 ∧
      (beValue ((fam6 c).niOps.rDeref y).addr.bytes : Int) = ((beValue x.cur.addr.bytes : Int) - step.val - step.val * n.val) % 2 ^ 128 ∧
      (beValue ((fam6 c).niOps.rDeref z).addr.bytes : Int) = ((beValue x.cur.addr.bytes : Int) - step.val + step.val * n.val) % 2 ^ 128 ∧
      (beValue ((fam6 c).niOps.rDeref i).addr.bytes : Int) = ((beValue x.cur.addr.bytes : Int) - 2 * step.val) % 2 ^ 128 ∧
      ((fam6 c).niOps.rDeref r).plen = p ∧ ((fam6 c).niOps.rDeref y).plen = p ∧ ((fam6 c).niOps.rDeref z).plen = p ∧
      ((fam6 c).niOps.rDeref i).plen = p ∧ (fam6 c).niOps.rDeref j = x.cur ∧
      ((fam6 c).niOps.rDiff y r).toNat = step.val * n.val % 2 ^ 128 % 2 ^ 64 :=
  r_networks (fam6Law c hc) step p hs x hx n

/-- The last host of `10.0.0.0/29` is `10.0.0.6`; two further on the way back is `10.0.0.4`. -/
example : ((fam4 true).aiMk [10, 0, 0, 7] 0 >>= fun x => (fam4 true).aiOps.rMk x >>= fun r => (fam4 true).aiOps.rAt r 2#32) =
    .ok [10, 0, 0, 4] := by decide +kernel

end Ip
