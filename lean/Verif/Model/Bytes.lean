/-!
# Object representations

The storage of a C++ object is a list of bytes.  `rd` / `wr` model `std::memcpy` out of / into an object at a byte
offset, as used by `impl::ptr_bit_cast`, `ptr_bit_copy`, `ptr_bit_cast_least`, `ptr_bit_copy_least`
(option.hpp 769-795) and by the string and vector traits (option.hpp 1659-1728).

Simplification: integers are little-endian.  The traits only ever read back what they wrote with the same width, and
the libc++ string layout is modelled in its little-endian form.
-/

namespace Opt

abbrev Byte := BitVec 8
abbrev Bytes := List Byte
/-- `std::uintmax_t` -/
abbrev U64 := BitVec 64

/-- `memcpy(&res, src + off, n)` -/
def rd (bs : Bytes) (off n : Nat) : Bytes := (bs.drop off).take n

/-- `memcpy(dst + off, src, sizeof(src))` -/
def wr (bs : Bytes) (off : Nat) (src : Bytes) : Bytes :=
  bs.take off ++ src ++ bs.drop (off + src.length)

/-- little-endian value of a byte string -/
def leVal : Bytes → Nat
  | [] => 0
  | b :: bs => b.toNat + 256 * leVal bs

/-- the `n` low-order bytes of `v`, little-endian -/
def leBytes : Nat → Nat → Bytes
  | 0, _ => []
  | n + 1, v => BitVec.ofNat 8 v :: leBytes n (v / 256)

/-- read a `w`-bit unsigned integer (w a multiple of 8) at byte offset `off` -/
def ld (w : Nat) (bs : Bytes) (off : Nat) : BitVec w :=
  BitVec.ofNat w (leVal (rd bs off (w / 8)))

/-- write a `w`-bit unsigned integer (w a multiple of 8) at byte offset `off` -/
def st (w : Nat) (bs : Bytes) (off : Nat) (v : BitVec w) : Bytes :=
  wr bs off (leBytes (w / 8) v.toNat)

end Opt
