import Verif.Model.Basic
/-
Independent specification of byte-level encodings: big-endian values and RFC 9000 section 16 integers.
Uses only the carrier types of the model (`Bytes`, `U8`).
-/
namespace Spec
open QuicSea (Bytes U8)

/-- Big-endian value of a byte string. -/
def beNat (bs : Bytes) : Nat := bs.foldl (fun a b => a * 256 + b.toNat) 0

/-- RFC 9000 section 16: `bs` is a variable-length integer encoding of `v`. The two most significant bits of the first byte are
the base-2 logarithm `k` of the length in bytes, the remaining `8 * 2^k - 2` bits are the value, in network byte order. -/
def IsVarInt (bs : Bytes) (v : Nat) : Prop :=
  ∃ k, k ≤ 3 ∧ bs.length = 2 ^ k ∧ v < 2 ^ (8 * 2 ^ k - 2) ∧ beNat bs = k * 2 ^ (8 * 2 ^ k - 2) + v

/-- RFC 9000 section 16, table 4: largest representable value is 2^62-1. -/
def varIntLimit : Nat := 2 ^ 62

/-- `IsVarInt` is not vacuous: the examples of RFC 9000 appendix A.1. -/
example : IsVarInt [0xc2, 0x19, 0x7c, 0x5e, 0xff, 0x14, 0xe8, 0x8c] 151288809941952652 := ⟨3, by decide +kernel⟩
example : IsVarInt [0x9d, 0x7f, 0x3e, 0x7d] 494878333 := ⟨2, by decide +kernel⟩
example : IsVarInt [0x7b, 0xbd] 15293 := ⟨1, by decide +kernel⟩
example : IsVarInt [0x25] 37 := ⟨0, by decide +kernel⟩
example : IsVarInt [0x40, 0x25] 37 := ⟨1, by decide +kernel⟩

end Spec
