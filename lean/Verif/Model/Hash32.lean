import Verif.Model.AnyNet

/-!
Hashes in programs with a 32 bit `size_t`.
-/

set_option autoImplicit false

namespace Ip

/-- `hash.hpp:30-38`, `hash_combine<4>`. -/
def hashCombine32 (value : BitVec 32) : BitVec 32 :=
  let value := value ^^^ (value >>> 16)
  let value := value * 0x21f0aaad#32
  let value := value ^^^ (value >>> 15)
  let value := value * 0x735a2d97#32
  value ^^^ (value >>> 15)

/-- `hash.hpp:53-56`, `hash_sum`. -/
def hashSum32 (seed value : BitVec 32) : BitVec 32 := hashCombine32 (seed + 0x9e3779b9#32 + value)

/-- `hash.hpp:58-67`, `calc_hash` over the arguments (never called without arguments). -/
def calcHash32 (seed : BitVec 32) : List (BitVec 32) → BitVec 32
  | [] => seed
  | a :: as => calcHash32 (hashSum32 seed a) as

/-- `ipv4-address.hpp:84-86`, `hash`. -/
def v4Hash32 (bytes : List (BitVec 8)) : BitVec 32 := calcHash32 0 (bytes.map (·.setWidth 32))

/-- `fixed-string.hpp:352-355`: the loop of `hash`. The cast `static_cast<size_t>(char)` is `conv`. -/
def FStr.hashLoop32 (conv : Char → BitVec 32) (data : List Char) (size : Nat) :
    Nat → Nat → BitVec 32 → Res (BitVec 32)
  | 0, _, _ => .ub
  | fuel + 1, i, value =>
    if i < size then do
      let c ← rd data i
      FStr.hashLoop32 conv data size fuel (i + 1) ((value ^^^ conv c) * 16777619#32)
    else .ok value

/-- `fixed-string.hpp:340-357, 499-501`, `hash`; the second is for strings of capacity 0. -/
def FStr.hash32 (conv : Char → BitVec 32) (s : FStr) : Res (BitVec 32) :=
  if s.data.length = 0 then .ok 0
  else FStr.hashLoop32 conv s.data s.length (s.length + 1) 0 2166136261#32

/-- `ipv6-address.hpp:788-799`, `hash`. -/
def v6Hash32 (conv : Char → BitVec 32) (a : V6) : Res (BitVec 32) := do
  let h ← FStr.hash32 conv a.scope
  .ok (calcHash32 h (a.bytes.map (·.setWidth 32)))

/-- `ip-network-base.hpp:669-671`, `hash` of an `ipv4_network`. -/
def v4NetHash32 (n : Net (List (BitVec 8))) : BitVec 32 := calcHash32 (v4Hash32 n.addr) [v4Hash32 n.mask]

/-- `ip-network-base.hpp:669-671`, `hash` of an `ipv6_network`. -/
def v6NetHash32 (conv : Char → BitVec 32) (n : Net V6) : Res (BitVec 32) := do
  let a ← v6Hash32 conv n.addr
  let m ← v6Hash32 conv n.mask
  .ok (calcHash32 a [m])

/-- `ip-any-address.hpp:215-217`, `hash`. -/
def anyHash32 (conv : Char → BitVec 32) : AnyAddr → Res (BitVec 32)
  | .v4 b => .ok (v4Hash32 b)
  | .v6 a => v6Hash32 conv a

/-- `ip-any-network.hpp:288-290`, `hash`. -/
def anyNetHash32 (conv : Char → BitVec 32) : AnyNet → Res (BitVec 32)
  | .v4 n => .ok (v4NetHash32 n)
  | .v6 n => v6NetHash32 conv n

/-- `uint128.hpp:296-301`, `hash`: `hash_combine<8>` on 64 bits, each result cut to `size_t` (`hash.hpp:43-50`).
The sum with the constant is of type `size_t`, the sum with `_lower` has 64 bits. -/
def U128.hash32 (x : U128) : BitVec 32 :=
  let seed := (hashCombine x.upper).setWidth 32
  (hashCombine ((seed + 0x9e3779b9#32).setWidth 64 + x.lower)).setWidth 32

end Ip
