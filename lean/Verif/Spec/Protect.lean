import Verif.Spec.Header
import Verif.Spec.PacketNumber
import Verif.Spec.Prims
/-
RFC 8446 section 7.1, RFC 9001 sections 5.1-5.4: key derivation and packet protection, stated on bytes over the library functions `Prims`.
Only data types of the model are used, none of its functions.
-/
namespace Spec
open QuicSea

/-- The bytes of an ASCII string. -/
def ascii (s : String) : Bytes := s.toList.map fun c => BitVec.ofNat 8 c.toNat

/-- RFC 8446 section 7.1 `HkdfLabel`: 16-bit length, label `"tls13 " + label` and context, each with an 8-bit length. -/
def IsHkdfLabel (bs : Bytes) (length : Nat) (label context : Bytes) : Prop :=
  ∃ (nb : Bytes) (l c : U8), nb.length = 2 ∧ beNat nb = length ∧ l.toNat = 6 + label.length ∧ c.toNat = context.length ∧
    bs = nb ++ [l] ++ ascii "tls13 " ++ label ++ [c] ++ context

/-- RFC 8446 section 7.1 `HKDF-Expand-Label`. -/
def ExpandLabel (P : Prims) (secret : Bytes) (label : String) (n : Nat) (out : Bytes) : Prop :=
  ∃ info, IsHkdfLabel info n (ascii label) [] ∧ P.hkdfExpand secret info n = some out

/-- Header protection key, IV and AEAD key of one direction. -/
structure Keys where
  hp : Bytes
  iv : Bytes
  key : Bytes
deriving DecidableEq, Repr

/-- RFC 9001 section 5.1, for AEAD_AES_128_GCM. -/
def DerivedKeys (P : Prims) (secret : Bytes) (k : Keys) : Prop :=
  ExpandLabel P secret "quic hp" 16 k.hp ∧ ExpandLabel P secret "quic iv" 12 k.iv ∧ ExpandLabel P secret "quic key" 16 k.key

/-- RFC 9001 section 5.2: salt of QUIC version 1. -/
def initialSalt : Bytes :=
  [0x38, 0x76, 0x2c, 0xf7, 0xf5, 0x59, 0x34, 0xb3, 0x4d, 0x17, 0x9a, 0xe6, 0xa4, 0xc8, 0x0c, 0xad, 0xcc, 0xbb, 0x7f, 0x0a]

/-- RFC 9001 section 5.2: Initial keys of one side, from the client's destination connection id. -/
def InitialKeys (P : Prims) (server : Bool) (cid : Bytes) (k : Keys) : Prop :=
  ∃ secret, ExpandLabel P (P.hkdfExtract (some initialSalt) cid) (if server then "server in" else "client in") 32 secret ∧
    DerivedKeys P secret k

/-- RFC 9001 sections 5.3, 5.4: a protected packet. `first` is the first byte and `mid` the rest of the header up to the packet number,
both before protection; `maskBits` are the bits of the first byte that are protected. The sample for header protection is the 16 bytes
from the fourth byte after the start of the packet number. -/
def Protected (P : Prims) (k : Keys) (maskBits first : U8) (mid pnBytes : Bytes) (pn : Nat) (payload out : Bytes) : Prop :=
  ∃ (nb ct tag : Bytes) (m0 m1 m2 m3 m4 : U8) (r : Bytes),
    nb.length = 8 ∧ beNat nb = pn ∧
    P.gcmSeal k.key (rfcNonce k.iv nb) ([first] ++ mid ++ pnBytes) payload = some (ct, tag) ∧
    20 ≤ (pnBytes ++ ct ++ tag).length ∧ P.aesEcb k.hp (((pnBytes ++ ct ++ tag).drop 4).take 16) = some (m0 :: m1 :: m2 :: m3 :: m4 :: r) ∧
    out = [first ^^^ (m0 &&& maskBits)] ++ mid ++ pnBytes.zipWith (· ^^^ ·) [m1, m2, m3, m4] ++ ct ++ tag

/-- What a receiver must have checked before using `plain`: the bytes `out` on the wire, with header protection removed under `k.hp`,
give the first byte `first` and the packet number bytes `pnBytes`, and the AEAD opens the rest to `plain` under `k` with the number `pn`
and the whole unprotected header as associated data. (`skip` are bytes between packet number and ciphertext; the RFC has none.) -/
def Opened (P : Prims) (k : Keys) (maskBits first : U8) (mid pnBytes skip : Bytes) (pn : Nat) (plain out : Bytes) : Prop :=
  ∃ (nb ct tag : Bytes) (m0 m1 m2 m3 m4 : U8) (r pnMasked : Bytes),
    nb.length = 8 ∧ beNat nb = pn ∧ tag.length = 16 ∧
    pnMasked.length = first.toNat % 4 + 1 ∧ (pnMasked ++ skip).length = 4 ∧ pnBytes = pnMasked.zipWith (· ^^^ ·) [m1, m2, m3, m4] ∧
    P.aesEcb k.hp ((ct ++ tag).take 16) = some (m0 :: m1 :: m2 :: m3 :: m4 :: r) ∧
    P.gcmOpen k.key (rfcNonce k.iv nb) ([first] ++ mid ++ pnBytes) ct tag = some plain ∧
    out = [first ^^^ (m0 &&& maskBits)] ++ mid ++ pnMasked ++ skip ++ ct ++ tag

/-- `Opened` with the inputs of the AEAD in view: the unprotected header `first :: mid ++ pnBytes` is the associated data, `nb` are the eight
bytes of the packet number, `ct` and `tag` the ciphertext and its tag. What lies between packet number and ciphertext is any bytes. -/
def OpenedFrom (P : Prims) (k : Keys) (maskBits first : U8) (mid pnBytes nb ct tag plain out : Bytes) : Prop :=
  ∃ (m0 m1 m2 m3 m4 : U8) (r pnMasked skip : Bytes),
    nb.length = 8 ∧ tag.length = 16 ∧
    pnMasked.length = first.toNat % 4 + 1 ∧ (pnMasked ++ skip).length = 4 ∧ pnBytes = pnMasked.zipWith (· ^^^ ·) [m1, m2, m3, m4] ∧
    P.aesEcb k.hp ((ct ++ tag).take 16) = some (m0 :: m1 :: m2 :: m3 :: m4 :: r) ∧
    P.gcmOpen k.key (rfcNonce k.iv nb) ([first] ++ mid ++ pnBytes) ct tag = some plain ∧
    out = [first ^^^ (m0 &&& maskBits)] ++ mid ++ pnMasked ++ skip ++ ct ++ tag

/-- RFC 9001 section 5.4.1: the bits of the first byte that are protected. -/
def protectedBits (first : U8) : U8 := if first.toNat < 128 then 0x1f else 0x0f

/-- RFC 9000 section 17.2.2: an Initial packet, with unprotected header `h`. -/
def InitialWire (P : Prims) (k : Keys) (h : LongPacketHeader) (token pnBytes : Bytes) (pn : Nat) (payload out : Bytes) : Prop :=
  ∃ hb tl lb, LongFields h (h.headerByte :: hb) ∧ packetKind h.headerByte h.version = .initial ∧
    h.headerByte.toNat % 4 + 1 = pnBytes.length ∧
    IsVarInt tl token.length ∧ IsVarInt lb (pnBytes.length + payload.length + 16) ∧
    Protected P k 0x0f h.headerByte (hb ++ tl ++ token ++ lb) pnBytes pn payload out

/-- RFC 9000 section 17.2.4: a Handshake packet. -/
def HandshakeWire (P : Prims) (k : Keys) (h : LongPacketHeader) (pnBytes : Bytes) (pn : Nat) (payload out : Bytes) : Prop :=
  ∃ hb lb, LongFields h (h.headerByte :: hb) ∧ packetKind h.headerByte h.version = .handshake ∧
    h.headerByte.toNat % 4 + 1 = pnBytes.length ∧
    IsVarInt lb (pnBytes.length + payload.length + 16) ∧
    Protected P k 0x0f h.headerByte (hb ++ lb) pnBytes pn payload out

/-- RFC 9000 section 17.2.3: a 0-RTT packet. -/
def ZeroRttWire (P : Prims) (k : Keys) (h : LongPacketHeader) (pnBytes : Bytes) (pn : Nat) (payload out : Bytes) : Prop :=
  ∃ hb lb, LongFields h (h.headerByte :: hb) ∧ packetKind h.headerByte h.version = .zeroRtt ∧
    h.headerByte.toNat % 4 + 1 = pnBytes.length ∧
    IsVarInt lb (pnBytes.length + payload.length + 16) ∧
    Protected P k 0x0f h.headerByte (hb ++ lb) pnBytes pn payload out

/-- RFC 9000 section 17.3.1: a 1-RTT packet, to a connection with ids of eight bytes. -/
def OneRttWire (P : Prims) (k : Keys) (h : ShortPacketHeader) (pnBytes : Bytes) (pn : Nat) (payload out : Bytes) : Prop :=
  ∃ hb, ShortFields h (h.headerByte :: hb) ∧ h.headerByte.toNat < 128 ∧
    h.headerByte.toNat % 4 + 1 = pnBytes.length ∧
    Protected P k 0x1f h.headerByte hb pnBytes pn payload out

/-- The `HkdfLabel` of RFC 9001 appendix A.1 for the client's Initial secret. -/
example : IsHkdfLabel [0x00,0x20,0x0f,0x74,0x6c,0x73,0x31,0x33,0x20,0x63,0x6c,0x69,0x65,0x6e,0x74,0x20,0x69,0x6e,0x00] 32 (ascii "client in") [] :=
  ⟨[0x00, 0x20], 0x0f, 0, by decide +kernel⟩

end Spec
