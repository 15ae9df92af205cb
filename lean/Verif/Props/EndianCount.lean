import Verif.Props.EndianMirror
import Verif.Props.Rest
/-
C66, the number of addresses of an IPv6 network on big endian hosts, exactly.
-/
set_option autoImplicit false

namespace Ip
open Spec

/-- Sixteen bytes with each half in the opposite order. -/
def Spec.halvesReversed (b : List (BitVec 8)) : List (BitVec 8) := (b.take 8).reverse ++ (b.drop 8).reverse

/-- The bytes of the host mask of a prefix length: `p` zero bits, then one bits. -/
def Spec.hostMaskBytes (p : Nat) : List (BitVec 8) := (List.range 16).map fun i => BitVec.ofNat 8 (2 ^ (8 - (p - 8 * i)) - 1)

theorem or_toNat (x h : BitVec 8) (e : x &&& h = 0#8) : (x ||| h).toNat = x.toNat + h.toNat := by
  rw [← BitVec.toNat_add_of_and_eq_zero e, BitVec.add_eq_or_of_and_eq_zero _ _ e]

theorem sum_cons {x h : BitVec 8} {os xs hs : List (BitVec 8)} (e : x &&& h = 0#8) (l1 : os.length = xs.length) (l2 : hs.length = xs.length)
    (ih : beValue os = beValue xs + beValue hs) : beValue ((x ||| h) :: os) = beValue (x :: xs) + beValue (h :: hs) := by
  simp only [beValue, or_toNat x h e, ih, l1, l2, Nat.add_mul]
  omega

/-- Where no bit is set twice, the bits of both are the sum, in whichever order the bytes are read. -/
theorem or_sum (a h z o : List (BitVec 8)) (la : a.length = 16) (lh : h.length = 16) (e : bytesZip (· &&& ·) a h = .ok z)
    (ez : beValue z = 0) (eo : bytesZip (· ||| ·) a h = .ok o) :
    o.length = 16 ∧ beValue (halvesReversed o) = beValue (halvesReversed a) + beValue (halvesReversed h) := by
  obtain ⟨r, hr, lr, _⟩ := bytesZip_and a h (by rw [la, lh])
  rw [hr] at e
  cases e
  have hz : z = List.replicate 16 0#8 := beValue_inj _ _ (by rw [lr, la]; rfl) (by rw [ez]; decide)
  subst hz
  obtain ⟨a0, a1, a2, a3, a4, a5, a6, a7, a8, a9, a10, a11, a12, a13, a14, a15, rfl⟩ := list16' a la
  obtain ⟨h0, h1, h2, h3, h4, h5, h6, h7, h8, h9, h10, h11, h12, h13, h14, h15, rfl⟩ := list16' h lh
  have e1 : [a0 &&& h0, a1 &&& h1, a2 &&& h2, a3 &&& h3, a4 &&& h4, a5 &&& h5, a6 &&& h6, a7 &&& h7, a8 &&& h8, a9 &&& h9,
      a10 &&& h10, a11 &&& h11, a12 &&& h12, a13 &&& h13, a14 &&& h14, a15 &&& h15] = List.replicate 16 0#8 := by
    have := hr
    simp only [bytesZip, Res.ok_bind] at this
    exact Res.ok.inj this
  have e2 : o = [a0 ||| h0, a1 ||| h1, a2 ||| h2, a3 ||| h3, a4 ||| h4, a5 ||| h5, a6 ||| h6, a7 ||| h7, a8 ||| h8, a9 ||| h9,
      a10 ||| h10, a11 ||| h11, a12 ||| h12, a13 ||| h13, a14 ||| h14, a15 ||| h15] := by
    simp only [bytesZip, Res.ok_bind] at eo
    exact (Res.ok.inj eo).symm
  subst e2
  refine ⟨rfl, ?_⟩
  simp only [List.replicate, List.cons.injEq, and_true] at e1
  obtain ⟨k0, k1, k2, k3, k4, k5, k6, k7, k8, k9, k10, k11, k12, k13, k14, k15⟩ := e1
  exact sum_cons k7 rfl rfl (sum_cons k6 rfl rfl (sum_cons k5 rfl rfl (sum_cons k4 rfl rfl (sum_cons k3 rfl rfl (sum_cons k2 rfl rfl
    (sum_cons k1 rfl rfl (sum_cons k0 rfl rfl (sum_cons k15 rfl rfl (sum_cons k14 rfl rfl (sum_cons k13 rfl rfl (sum_cons k12 rfl rfl
    (sum_cons k11 rfl rfl (sum_cons k10 rfl rfl (sum_cons k9 rfl rfl (sum_cons k8 rfl rfl rfl)))))))))))))))

theorem hostMask_table : ∀ p : Fin 129, (v6FromPrefix p.val >>= fun m => .ok (m.map (· ^^^ 0xFF#8))) = Res.ok (hostMaskBytes p.val) ∧
    (((beValue (halvesReversed (hostMaskBytes p.val)) + 1) % 2 ^ 128 = 2 ^ (128 - p.val) % 2 ^ 128) ↔ p.val = 0 ∨ p.val = 64 ∨ p.val = 128) := by
  decide +kernel

/-- C66, IPv6 on big endian hosts: `addresses_count` of every network is one more than its host mask read with each half in
the opposite order.  It depends on the prefix length alone, and is the number of addresses of the network (modulo `2 ^ 128`) for
the prefix lengths 0, 64 and 128 only. -/
theorem C66_v6_count_exact (c : Cfg) (n : Net V6) (hn : NetOk6 c n) :
    ∃ k, (fam6 (c.onHost false)).addressesCount n = .ok k ∧
      k.val = (beValue (halvesReversed (hostMaskBytes n.plen)) + 1) % 2 ^ 128 ∧
      (k.val = 2 ^ (128 - n.plen) % 2 ^ 128 ↔ n.plen = 0 ∨ n.plen = 64 ∨ n.plen = 128) := by
  have ok : NetOk6 (c.onHost true) n := ⟨hn.wf, hn.plen, hn.mask, hn.aligned⟩
  obtain ⟨_, h2, hp⟩ := C24_no_host_bits_v6 (c.onHost true) rfl n ok
  obtain ⟨m, m1, m2, m3⟩ := hn.mask
  have m2 : m.length = 16 := by
    have : 8 * m.length = 128 := m2
    omega
  have e0 : ((fam6 (c.onHost true)).hostmask n).bytes = n.mask.bytes.map (· ^^^ 0xFF#8) := rfl
  have mb : n.mask.bytes = m := by rw [m1]; rfl
  have hmask : n.mask.bytes.map (· ^^^ 0xFF#8) = hostMaskBytes n.plen := by
    obtain ⟨b, b1, b2, b3⟩ := v6FromPrefix_val n.plen hp
    have : b = m := beValue_inj _ _ (by rw [b2, m2]) (by rw [b3, m3]; rfl)
    have t1 := (hostMask_table ⟨n.plen, by omega⟩).1
    simp only [b1, Res.ok_bind] at t1
    rw [mb, ← this]
    exact Res.ok.inj t1
  have t2 := (hostMask_table ⟨n.plen, by omega⟩).2
  simp only at t2
  rw [e0, hmask] at h2
  have la : n.addr.bytes.length = 16 := hn.wf.1
  have lh : (hostMaskBytes n.plen).length = 16 := by simp [hostMaskBytes]
  obtain ⟨z, z1, _, z3⟩ := bytesZip_and n.addr.bytes (hostMaskBytes n.plen) (by rw [la, lh])
  obtain ⟨o, o1, _, _⟩ := bytesZip_or n.addr.bytes (hostMaskBytes n.plen) (by rw [la, lh])
  obtain ⟨lo, sum⟩ := or_sum _ _ z o la lh z1 (by rw [z3, h2]) o1
  obtain ⟨u, u1, u2⟩ := C14_uint_exact false o lo
  obtain ⟨v, v1, v2⟩ := C14_uint_exact false n.addr.bytes la
  have val : ((u.sub v).add (U128.ofI64 1#64)).val = (beValue (halvesReversed (hostMaskBytes n.plen)) + 1) % 2 ^ 128 := by
    have eu : u.val = beValue (halvesReversed o) := u2
    have ev : v.val = beValue (halvesReversed n.addr.bytes) := v2
    have ul := u.val_lt
    have vl := v.val_lt
    have one : (U128.ofI64 1#64).val = 1 := by decide
    rw [U128.val_add, U128.val_sub, one]
    simp only [Spec.two128] at *
    omega
  refine ⟨(u.sub v).add (U128.ofI64 1#64), ?_, val, by rw [val]; exact t2⟩
  have eb : (fam6 (c.onHost false)).broadcast n = .ok ⟨o, emptyScope c.M⟩ := by
    show (bytesZip (· ||| ·) n.addr.bytes (n.mask.bytes.map (· ^^^ 0xFF#8)) >>= fun b => _) = _
    rw [hmask, o1]
    rfl
  unfold Fam.addressesCount
  rw [eb, Res.ok_bind]
  show (v6ToUint false o >>= fun b => v6ToUint false n.addr.bytes >>= fun a => _) = _
  rw [u1, v1]
  rfl

/-- `2001:db8::/32` has `2 ^ 96` addresses; on a big endian host it is reported to have about `2 ^ 128 - 2 ^ 96`. -/
example : beValue (halvesReversed (hostMaskBytes 32)) + 1 = 2 ^ 128 - 2 ^ 96 + 2 ^ 64 := by decide +kernel

example := C66_v6_count_exact exCfg ex32 ex32_ok

end Ip
