import Verif.Spec.Header
/-
RFC 9000 section 5.2: which connection a datagram is for, stated on its bytes.
-/
namespace Spec
open QuicSea

/-- The bytes start with a header of kind `kind` (RFC 9000 section 17) with destination connection id `d`. Ids of Version
Negotiation packets have up to 255 bytes, ids of other long headers up to 20, ids of short headers the 8 bytes the crate issues. -/
def Addressed (data : Bytes) (kind : PacketType) (d : Bytes) : Prop :=
  (∃ (first : U8) (rest : Bytes), data = [first] ++ d ++ rest ∧ first.toNat < 128 ∧ d.length = 8 ∧ kind = .oneRtt) ∨
  (∃ (first : U8) (vb : Bytes) (dl sl : U8) (s rest : Bytes) (version : U32),
    data = [first] ++ vb ++ [dl] ++ d ++ [sl] ++ s ++ rest ∧ 128 ≤ first.toNat ∧
    vb.length = 4 ∧ beNat vb = version.toNat ∧ d.length = dl.toNat ∧ s.length = sl.toNat ∧
    (version.toNat ≠ 0 → d.length ≤ 20 ∧ s.length ≤ 20) ∧ kind = packetKind first version)

/-- The bytes start with the header of an Initial packet (RFC 9000 section 17.2.2) of this version, with destination id `d` and source id `s`. -/
def OpensWith (data : Bytes) (version : U32) (d s : Bytes) : Prop :=
  ∃ (first : U8) (vb : Bytes) (dl sl : U8) (rest : Bytes),
    data = [first] ++ vb ++ [dl] ++ d ++ [sl] ++ s ++ rest ∧ 128 ≤ first.toNat ∧
    vb.length = 4 ∧ beNat vb = version.toNat ∧ d.length = dl.toNat ∧ s.length = sl.toNat ∧
    d.length ≤ 20 ∧ s.length ≤ 20 ∧ packetKind first version = .initial

/-- The bytes do not start with a header. -/
def Malformed (data : Bytes) : Prop := ¬ ∃ kind d, Addressed data kind d

/-- A long header with an 8-byte id and a short header; the last byte string is no header. -/
example : Addressed [0xc3, 0, 0, 0, 1, 8, 1, 2, 3, 4, 5, 6, 7, 8, 0, 9] .initial [1, 2, 3, 4, 5, 6, 7, 8] :=
  .inr ⟨0xc3, [0, 0, 0, 1], 8, 0, [], [9], 1, by decide +kernel⟩
example : Addressed [0x43, 1, 2, 3, 4, 5, 6, 7, 8, 9] .oneRtt [1, 2, 3, 4, 5, 6, 7, 8] :=
  .inl ⟨0x43, [9], by decide +kernel⟩
example : OpensWith [0xc3, 0, 0, 0, 1, 8, 1, 2, 3, 4, 5, 6, 7, 8, 2, 9, 9, 0] 1 [1, 2, 3, 4, 5, 6, 7, 8] [9, 9] :=
  ⟨0xc3, [0, 0, 0, 1], 8, 2, [0], by decide +kernel⟩
example : Malformed [] := by
  rintro ⟨k, d, ⟨_, _, h, _⟩ | ⟨_, _, _, _, _, _, _, h, _⟩⟩ <;> simp at h

end Spec
