/-
Outcomes, error codes and checked buffers shared by all parts of the model.
-/
set_option autoImplicit false

namespace Ip

/-- Models `include/ipaddress/errors.hpp:52-94` (`enum class error_code`) without `no_error`,
which is the `ok` outcome of `Res`. -/
inductive ErrorCode where
  | empty_address
  | empty_netmask
  | invalid_netmask
  | netmask_pattern_mixes_zeroes_and_ones
  | has_host_bits_set
  | only_one_slash_permitted
  | string_is_too_long
  | empty_octet
  | expected_4_octets
  | leading_0_are_not_permitted
  | octet_more_3_characters
  | octet_has_invalid_symbol
  | octet_exceeded_255
  | least_3_parts
  | most_8_colons_permitted
  | part_is_more_4_chars
  | part_has_invalid_symbol
  | most_one_double_colon_permitted
  | leading_colon_only_permitted_as_part_of_double_colon
  | trailing_colon_only_permitted_as_part_of_double_colon
  | expected_at_most_7_other_parts_with_double_colon
  | exactly_8_parts_expected_without_double_colon
  | scope_id_is_too_long
  | invalid_scope_id
  | invalid_version
  | invalid_prefixlen_diff
  | new_prefix_must_be_shorter
  | new_prefix_must_be_longer
  | cannot_set_prefixlen_diff_and_new_prefix
  | not_contained_network
  | unexpected_symbol
  | wrong_encoding_sequence
deriving DecidableEq, Repr

/-- Outcome of a modelled function.  The C++ functions return a value and set an
`error_code& code` and a `uint32_t& code_value` (e.g. `base-v4.hpp:61`).
`ok` is `code == no_error`; `err` carries the code and the code value; `ub` is undefined
behaviour: an array access out of range, a shift by at least the operand width, a division by
zero, or a loop that does not terminate. -/
inductive Res (α : Type) where
  | ok (a : α)
  | err (code : ErrorCode) (value : Nat)
  | ub
deriving DecidableEq, Repr

namespace Res

/-- Sequencing of two steps; models the early returns `if (code != no_error) return {};`. -/
@[inline] def bind {α β : Type} (x : Res α) (f : α → Res β) : Res β :=
  match x with
  | ok a => f a
  | err c v => err c v
  | ub => ub

instance : Monad Res where
  pure := ok
  bind := bind

@[simp] theorem pure_eq {α : Type} (a : α) : (pure a : Res α) = ok a := rfl
@[simp] theorem ok_bind {α β : Type} (a : α) (f : α → Res β) : (ok a >>= f) = f a := rfl
@[simp] theorem err_bind {α β : Type} (c : ErrorCode) (v : Nat) (f : α → Res β) :
    ((err c v : Res α) >>= f) = err c v := rfl
@[simp] theorem ub_bind {α β : Type} (f : α → Res β) : ((ub : Res α) >>= f) = ub := rfl
@[simp] theorem bind_def {α β : Type} (x : Res α) (f : α → Res β) : Res.bind x f = (x >>= f) := rfl

theorem bind_eq_ok {α β : Type} {x : Res α} {f : α → Res β} {b : β} :
    (x >>= f) = ok b ↔ ∃ a, x = ok a ∧ f a = ok b := by
  cases x <;> simp

theorem bind_ne_ub {α β : Type} {x : Res α} {f : α → Res β}
    (hx : x ≠ ub) (hf : ∀ a, x = ok a → f a ≠ ub) : (x >>= f) ≠ ub := by
  cases x <;> simp_all

@[simp] theorem map_ok {α β : Type} (g : α → β) (a : α) : (g <$> (ok a : Res α)) = ok (g a) := rfl

/-- The outcome is a value. -/
def isOk {α : Type} : Res α → Bool
  | ok _ => true
  | _ => false

end Res

/-- One step of `internal::next_char_or_error` (`unicode.hpp:275-278`): a character, or an error
code with the offending symbol. -/
inductive Ev where
  | ch (c : Char)
  | bad (code : ErrorCode) (sym : Nat)
deriving DecidableEq, Repr

/-- Array read `a[i]` with a bounds check; out of range is undefined behaviour. -/
def rd {α : Type} (a : List α) (i : Nat) : Res α :=
  match a[i]? with
  | some x => .ok x
  | none => .ub

/-- Array write `a[i] = x` with a bounds check; out of range is undefined behaviour. -/
def wr {α : Type} (a : List α) (i : Nat) (x : α) : Res (List α) :=
  if i < a.length then .ok (a.set i x) else .ub

theorem rd_append {α : Type} (p : List α) (x : α) (q : List α) (i : Nat) (h : i = p.length) :
    rd (p ++ x :: q) i = .ok x := by
  subst h; simp [rd]

theorem wr_append {α : Type} (p : List α) (x y : α) (q : List α) (i : Nat) (h : i = p.length) :
    wr (p ++ x :: q) i y = .ok (p ++ y :: q) := by
  subst h; simp [wr]

theorem rd_of_lt {α : Type} (a : List α) (i : Nat) (h : i < a.length) : rd a i = .ok a[i] := by
  simp [rd, h]

theorem wr_of_lt {α : Type} (a : List α) (i : Nat) (x : α) (h : i < a.length) :
    wr a i x = .ok (a.set i x) := by
  simp [wr, h]

theorem wr_ok_length {α : Type} {a b : List α} {i : Nat} {x : α} (h : wr a i x = .ok b) :
    b.length = a.length := by
  unfold wr at h; split at h
  · cases h; simp
  · cases h

end Ip
