import Verif.Spec.Wire
/-
RFC 9000 appendix A.2, A.3 and RFC 9001 section 5.3, on natural numbers and bytes.
-/
namespace Spec
open QuicSea

/-- RFC 9000 appendix A.3 `DecodePacketNumber`, `largest` being the largest packet number seen (`none`: none yet, -1 in the RFC). -/
def rfcDecodePn (largest : Option Nat) (truncated bits : Nat) : Nat :=
  let expected := match largest with
    | some l => l + 1
    | none => 0
  let win := 2 ^ bits
  let hwin := win / 2
  let candidate := expected / win * win + truncated
  if candidate + hwin ≤ expected ∧ candidate < 2 ^ 62 - win then candidate + win
  else if candidate > expected + hwin ∧ candidate ≥ win then candidate - win
  else candidate

/-- RFC 9000 section 17.1 and appendix A.2: enough bits for a number `pn` when `acked` is the largest acknowledged one. -/
def enoughBits (pn : Nat) (acked : Option Nat) (bits : Nat) : Prop :=
  match acked with
  | some a => 2 * (pn - a) < 2 ^ bits
  | none => 2 * (pn + 1) ≤ 2 ^ bits

/-- RFC 9001 section 5.3: the nonce is the IV xored with the packet number, left-padded with zeros to the length of the IV. -/
def rfcNonce (iv : Bytes) (pnBytes : Bytes) : Bytes :=
  iv.zipWith (· ^^^ ·) (List.replicate (iv.length - pnBytes.length) 0 ++ pnBytes)

/-- RFC 9000 appendix A.3's example: largest 0xa82f30ea, 16 bits 0x9b32 gives 0xa82f9b32. -/
example : rfcDecodePn (some 0xa82f30ea) 0x9b32 16 = 0xa82f9b32 := by decide

end Spec
