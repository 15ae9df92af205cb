import Verif.Spec.Net
/-
The address registries as intervals of integers.
-/
set_option autoImplicit false

namespace Ip.Spec

/-- The integer of the IPv4 address `a.b.c.d`. -/
def quad (a b c d : Nat) : Nat := ((a * 256 + b) * 256 + c) * 256 + d

/-- The integer of the IPv6 address whose hextets are `a:b:c:d:e:f:g:h`. -/
def octo (a b c d e f g h : Nat) : Nat :=
  ((((((a * 65536 + b) * 65536 + c) * 65536 + d) * 65536 + e) * 65536 + f) * 65536 + g) * 65536 + h

/-- IPv4 addresses that are not globally reachable according to the IANA special purpose registry (in the
reading of Python's `ipaddress` that the library follows), by first and last address. -/
def Private4 (x : Nat) : Prop :=
  (quad 0 0 0 0 ≤ x ∧ x ≤ quad 0 255 255 255) ∨
  (quad 10 0 0 0 ≤ x ∧ x ≤ quad 10 255 255 255) ∨
  (quad 127 0 0 0 ≤ x ∧ x ≤ quad 127 255 255 255) ∨
  (quad 169 254 0 0 ≤ x ∧ x ≤ quad 169 254 255 255) ∨
  (quad 172 16 0 0 ≤ x ∧ x ≤ quad 172 31 255 255) ∨
  (quad 192 0 0 0 ≤ x ∧ x ≤ quad 192 0 0 7) ∨
  (quad 192 0 0 170 ≤ x ∧ x ≤ quad 192 0 0 171) ∨
  (quad 192 0 2 0 ≤ x ∧ x ≤ quad 192 0 2 255) ∨
  (quad 192 168 0 0 ≤ x ∧ x ≤ quad 192 168 255 255) ∨
  (quad 198 18 0 0 ≤ x ∧ x ≤ quad 198 19 255 255) ∨
  (quad 198 51 100 0 ≤ x ∧ x ≤ quad 198 51 100 255) ∨
  (quad 203 0 113 0 ≤ x ∧ x ≤ quad 203 0 113 255) ∨
  (quad 240 0 0 0 ≤ x ∧ x ≤ quad 255 255 255 255)

/-- The shared address space 100.64.0.0/10, neither private nor global. -/
def Shared4 (x : Nat) : Prop := quad 100 64 0 0 ≤ x ∧ x ≤ quad 100 127 255 255

/-- Multicast addresses. -/
def Multicast4 (x : Nat) : Prop := quad 224 0 0 0 ≤ x ∧ x ≤ quad 239 255 255 255

/-- Reserved addresses. -/
def Reserved4 (x : Nat) : Prop := quad 240 0 0 0 ≤ x ∧ x ≤ quad 255 255 255 255

/-- Loopback addresses. -/
def Loopback4 (x : Nat) : Prop := quad 127 0 0 0 ≤ x ∧ x ≤ quad 127 255 255 255

/-- Link local addresses. -/
def LinkLocal4 (x : Nat) : Prop := quad 169 254 0 0 ≤ x ∧ x ≤ quad 169 254 255 255

/-- IPv6 addresses that are not globally reachable, apart from the IPv4 mapped ones. -/
def Private6 (x : Nat) : Prop :=
  x ≤ 1 ∨
  (octo 0x100 0 0 0 0 0 0 0 ≤ x ∧ x ≤ octo 0x100 0 0 0 0xffff 0xffff 0xffff 0xffff) ∨
  (octo 0x2001 0 0 0 0 0 0 0 ≤ x ∧ x ≤ octo 0x2001 0x1ff 0xffff 0xffff 0xffff 0xffff 0xffff 0xffff) ∨
  (octo 0x2001 0xdb8 0 0 0 0 0 0 ≤ x ∧ x ≤ octo 0x2001 0xdb8 0xffff 0xffff 0xffff 0xffff 0xffff 0xffff) ∨
  (octo 0xfc00 0 0 0 0 0 0 0 ≤ x ∧ x ≤ octo 0xfdff 0xffff 0xffff 0xffff 0xffff 0xffff 0xffff 0xffff) ∨
  (octo 0xfe80 0 0 0 0 0 0 0 ≤ x ∧ x ≤ octo 0xfebf 0xffff 0xffff 0xffff 0xffff 0xffff 0xffff 0xffff)

/-- IPv4 mapped addresses `::ffff:a.b.c.d`. -/
def Mapped6 (x : Nat) : Prop := octo 0 0 0 0 0 0xffff 0 0 ≤ x ∧ x ≤ octo 0 0 0 0 0 0xffff 0xffff 0xffff

/-- Multicast addresses. -/
def Multicast6 (x : Nat) : Prop :=
  octo 0xff00 0 0 0 0 0 0 0 ≤ x ∧ x ≤ octo 0xffff 0xffff 0xffff 0xffff 0xffff 0xffff 0xffff 0xffff

/-- Addresses reserved by the IETF: what is left apart from global unicast `2000::/3`, unique local
`fc00::/7`, link local and site local `fe80::/9`, and multicast. -/
def Reserved6 (x : Nat) : Prop :=
  x ≤ octo 0x1fff 0xffff 0xffff 0xffff 0xffff 0xffff 0xffff 0xffff ∨
  (octo 0x4000 0 0 0 0 0 0 0 ≤ x ∧ x ≤ octo 0xfbff 0xffff 0xffff 0xffff 0xffff 0xffff 0xffff 0xffff) ∨
  (octo 0xfe00 0 0 0 0 0 0 0 ≤ x ∧ x ≤ octo 0xfe7f 0xffff 0xffff 0xffff 0xffff 0xffff 0xffff 0xffff)

/-- Link local addresses. -/
def LinkLocal6 (x : Nat) : Prop :=
  octo 0xfe80 0 0 0 0 0 0 0 ≤ x ∧ x ≤ octo 0xfebf 0xffff 0xffff 0xffff 0xffff 0xffff 0xffff 0xffff

/-- Site local addresses. -/
def SiteLocal6 (x : Nat) : Prop :=
  octo 0xfec0 0 0 0 0 0 0 0 ≤ x ∧ x ≤ octo 0xfeff 0xffff 0xffff 0xffff 0xffff 0xffff 0xffff 0xffff

end Ip.Spec
