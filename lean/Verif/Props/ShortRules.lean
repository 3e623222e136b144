import Verif.Props.AppData
import Verif.Props.Decode
import Verif.Proofs.Routing
/-
C108: the key phase of 1-RTT packets (RFC 9001 section 6). C109: stateless resets (RFC 9000 section 10.3).
-/
namespace Spec
open QuicSea (Bytes U8)

/-- RFC 9000 section 17.3.1: the Key Phase bit of the first byte, with protection removed. -/
def keyPhaseBit (first : U8) : Bool := decide (first.toNat / 4 % 2 = 1)

/-- RFC 9000 section 10.3: a stateless reset with the given token: at least 21 bytes that look like a packet with a short header and end in the token. -/
def IsReset (token data : Bytes) : Prop :=
  token.length = 16 ∧ 21 ≤ data.length ∧ token <:+ data ∧ ∃ first rest, data = first :: rest ∧ first.toNat / 64 = 1

end Spec

namespace QuicSea
open Spec

/-! ## C108 -/

/-- C108, full statement: a receiver holds the keys of one key phase, that of the first keys, whose bit is 0. So it delivers no packet with the other bit. -/
def C108For (P : Prims) : Prop :=
  ∀ (bp : Profile) (c : Connection) (k : Keys) (_ : KeyLens k) (_ : c.remoteSecrets .application = .ok (secretsOf P k))
    (_ : (c.pnInfo .application).largestRemoteAck = none) (s s' : Stream) (p : PacketOneRtt), decodeNextPacket bp c s = (.ok (.oneRtt p), s') →
    keyPhaseBit p.header.headerByte = false
/-- The claim, for all algorithms that obey the laws. -/
def C108Statement : Prop := ∀ P, PrimLaws P → C108For P

/-- C108 is false for every packet: with the bit set it is delivered as without it, under the same keys, and its header shows the bit. -/
theorem C108_bit_ignored (P : Prims) (hP : PrimLaws P) (bp : Profile) (c : Connection) (k : Keys) (hkl : KeyLens k)
    (hk : c.remoteSecrets .application = .ok (secretsOf P k)) (ha : (c.pnInfo .application).largestRemoteAck = none) (h : ShortPacketHeader)
    (hp : h.isProtected = false) (pnB payload out : Bytes) (pn : U64) (fs : List Frame) (hw : OneRttWire P k h pnB pn.toNat payload out)
    (h4 : pnB.length = 4) (hv : beNat pnB = pn.toNat) (hf : (deserializeFrames (makeResultStream payload)).1 = .ok fs) (_ : keyPhaseBit h.headerByte = true) :
    ∃ p, decodeNextPacket bp c (makeResultStream out) = (.ok (.oneRtt p), []) ∧ keyPhaseBit p.header.headerByte = true ∧ p.packetPayload = fs :=
  ⟨_, C74_four_bytes_partial P hP bp c k hkl hk ha h hp pnB payload out pn fs hw h4 hv hf, by assumption, rfl⟩
/-- Nor is a key update followed: whatever the bit, a packet is delivered only if it opens under the keys installed. -/
theorem C108_only_installed_keys (P : Prims) (bp : Profile) (c : Connection) (k : Keys) (hkl : KeyLens k)
    (hk : c.remoteSecrets .application = .ok (secretsOf P k)) (s s' : Stream) (p : PacketOneRtt) (h : decodeNextPacket bp c s = (.ok (.oneRtt p), s')) :
    ∃ out hb plain skip, s = makeResultStream out ∧ ShortFields p.header (p.header.headerByte :: hb) ∧
      Opened P k 0x1f p.header.headerByte hb p.packetNumberBytes skip p.packetNumber.toNat plain out ∧
      (deserializeFrames (makeResultStream plain)).1 = .ok p.packetPayload := by
  obtain ⟨out, hb, pl, skip, e1, -, e3, -, ho, hf⟩ := oneRtt_opened hk hkl.2.1 h
  exact ⟨out, hb, pl, skip, e1, e3, ho, hf⟩
/-- C108, the part that holds: a delivered header tells the bit. Missing: that anything is done with it. -/
theorem C108_bit_readable_partial (P : Prims) (bp : Profile) (c : Connection) (k : Keys) (hkl : KeyLens k)
    (hk : c.remoteSecrets .application = .ok (secretsOf P k)) (s s' : Stream) (p : PacketOneRtt) (h : decodeNextPacket bp c s = (.ok (.oneRtt p), s')) :
    p.header.keyPhase = .ok (keyPhaseBit p.header.headerByte) := by
  have hp := (C74_takes_the_rest P bp c k hkl hk s s' p h).2
  have : ∀ b : U8, decide (b &&& 0x04 = 0x04) = keyPhaseBit b := by decide +kernel
  unfold ShortPacketHeader.keyPhase
  rw [hp]
  exact congrArg Out.ok (this _)

def exPhaseHeader : ShortPacketHeader := ⟨0x67, ⟨0, 0x0102030405060708⟩, false⟩
def exPhaseOut : Bytes := exAppOut 0x1f 0x67 [1, 2, 3, 4, 5, 6, 7, 8] (exPn 4)
theorem exPhaseOut_wire : OneRttWire Spec.toy exKeys exPhaseHeader (exPn 4) 1 exPayload exPhaseOut := by
  refine ⟨[1, 2, 3, 4, 5, 6, 7, 8], ⟨[1, 2, 3, 4, 5, 6, 7, 8], rfl, rfl, by show beNat _ = cidVal ⟨0, 0x0102030405060708⟩; decide +kernel⟩, by decide, by decide +kernel, ?_⟩
  exact exApp_protected 0x1f _ [1, 2, 3, 4, 5, 6, 7, 8] (exPn 4) (by decide +kernel) (by decide +kernel) (by decide +kernel)
theorem C108_false : ¬ C108Statement := by
  intro h
  obtain ⟨p, e, hb, -⟩ := C108_bit_ignored Spec.toy Spec.toy_laws .debug exAppConn exKeys exKeys_lens rfl rfl exPhaseHeader rfl (exPn 4) exPayload exPhaseOut 1
    (.ping :: List.replicate 20 .padding) exPhaseOut_wire (by decide) (by decide +kernel) (by decide +kernel) (by decide)
  rw [h Spec.toy Spec.toy_laws .debug exAppConn exKeys exKeys_lens rfl rfl _ _ p e] at hb
  cases hb
/-- Instance: the packets with first byte 0x63 and 0x67, key phases 0 and 1. -/
example : [exOneOut 4, exPhaseOut].map (fun out => match (decodeNextPacket .debug exAppConn (makeResultStream out)).1 with
    | .ok (.oneRtt p) => some (p.header.keyPhase.isOk, keyPhaseBit p.header.headerByte) | _ => none) = [some (true, false), some (true, true)] := by decide +kernel

/-! ## C109 -/

/-- C109, full statement: once a token has been delivered in a NEW_CONNECTION_ID frame, a datagram that is a stateless reset with this token is taken for one. -/
def C109For (P : Prims) : Prop :=
  ∀ (bp : Profile) (c : Connection) (k : Keys) (_ : KeyLens k) (_ : c.remoteSecrets .application = .ok (secretsOf P k))
    (s s' : Stream) (p : PacketOneRtt) (_ : decodeNextPacket bp c s = (.ok (.oneRtt p), s')) (x : FrameNewConnectionId) (_ : Frame.newConnectionId x ∈ p.packetPayload)
    (token data : Bytes) (_ : beNat token = x.statelessResetToken.toNat) (_ : IsReset token data),
    ∃ h s', nextHeaderFromStream (makeResultStream data) = (.ok h, s') ∧ h.getPacketType = .ok .statelessReset
/-- The claim, for all algorithms that obey the laws. -/
def C109Statement : Prop := ∀ P, PrimLaws P → C109For P

/-- C109 is false for every reset: it is taken for a 1-RTT packet. -/
theorem C109_taken_for_one_rtt (token data : Bytes) (h : IsReset token data) :
    ∃ x s', nextHeaderFromStream (makeResultStream data) = (.ok (.short x), s') ∧ (PacketHeader.short x).getPacketType = .ok .oneRtt := by
  obtain ⟨-, h1, -, first, rest, rfl, h2⟩ := h
  have hl : 8 ≤ rest.length := by simp at h1; omega
  have hb := beNat_lt (rest.take 8)
  have h8 : (rest.take 8).length = 8 := by simp [hl]
  rw [h8] at hb
  obtain ⟨x, hx⟩ := u160_of_val (beNat (rest.take 8)) (by omega)
  refine ⟨⟨first, x, true⟩, makeResultStream (rest.drop 8), nextHeader_short_iff.mpr ⟨first :: rest.take 8, ?_, ⟨rest.take 8, rfl, h8, hx.symm⟩, ?_, rfl⟩, rfl⟩
  · rw [← makeResultStream_append, List.cons_append, List.take_append_drop]
  · show first.toNat < 128
    omega
/-- Nothing else is ever taken for one, either. -/
theorem C109_never_recognised (s s' : Stream) (h : PacketHeader) (hm : nextHeaderFromStream s = (.ok h, s')) : h.getPacketType ≠ .ok .statelessReset := by
  obtain ⟨first, vb, s1, rfl, hl⟩ := C25_has_five_bytes s s' h hm
  rw [C25_classification first vb s1 s' h hl hm]
  intro e
  have e := Out.ok.inj e
  unfold packetKind at e
  repeat' split at e
  all_goals cases e
/-- C109, the part that holds: in every state that the crate can reach a reset is refused with an error, nothing is delivered from it, and there is no panic.
Missing: that the connection ends. -/
theorem C109_refused_partial (P : Prims) (hP : PrimLaws P) (bp bp' : Profile) (c : Connection) (hr : Connection.Reachable P bp c) (token data : Bytes) (h : IsReset token data) :
    (decodePackets bp' c (makeResultStream data)).1.isErr = true := by
  obtain ⟨x, s', hx, -⟩ := C109_taken_for_one_rtt token data h
  have he := C34_no_keys_error P hP bp bp' c hr _ (Or.inr ⟨x, s', next_shortAt hx⟩)
  rw [decodePackets_eq bp' c _ (by obtain ⟨-, -, -, f, r, rfl, -⟩ := h; simp)]
  exact Rd.bind_isErr' he

/-- A 1-RTT packet with a NEW_CONNECTION_ID frame, and a stateless reset with its token. -/
def exResetToken : Bytes := [0xa0, 1, 2, 3, 4, 5, 6, 7, 8, 9, 10, 11, 12, 13, 14, 15]
def exNcid : FrameNewConnectionId := ⟨1, 0, 8, ⟨0, 0x1111111111111111⟩, BitVec.ofNat 128 (beNat exResetToken)⟩
def exResetTokenPayload : Bytes := [0x18, 1, 0, 8] ++ List.replicate 8 0x11 ++ exResetToken
def exResetTokenCt : Bytes × Bytes :=
  (Spec.toy.gcmSeal exKeys.key (rfcNonce exKeys.iv [0, 0, 0, 0, 0, 0, 0, 1]) ([0x63] ++ [1, 2, 3, 4, 5, 6, 7, 8] ++ exPn 4) exResetTokenPayload).getD ([], [])
def exResetTokenMask : Bytes := (Spec.toy.aesEcb exKeys.hp ((exResetTokenCt.1 ++ exResetTokenCt.2).take 16)).getD []
def exResetTokenOut : Bytes :=
  [0x63 ^^^ (exResetTokenMask[0]! &&& 0x1f)] ++ [1, 2, 3, 4, 5, 6, 7, 8] ++ (exPn 4).zipWith (· ^^^ ·) (exResetTokenMask.drop 1) ++ exResetTokenCt.1 ++ exResetTokenCt.2
def exReset : Bytes := [0x55, 9, 8, 7, 6, 5, 4, 3, 2, 1, 0] ++ exResetToken
theorem exReset_is : IsReset exResetToken exReset := ⟨rfl, by decide, ⟨_, rfl⟩, _, _, rfl, by decide⟩
theorem exResetToken_delivered : ∃ p s', decodeNextPacket .debug exAppConn (makeResultStream exResetTokenOut) = (.ok (.oneRtt p), s') ∧ Frame.newConnectionId exNcid ∈ p.packetPayload := by
  have hs : (match decodeNextPacket .debug exAppConn (makeResultStream exResetTokenOut) with
    | (.ok (.oneRtt p), _) => decide (p.packetPayload = [.newConnectionId exNcid]) | _ => false) = true := by decide +kernel
  split at hs
  · rename_i p s' he
    exact ⟨p, s', he, by rw [of_decide_eq_true hs]; exact List.mem_singleton.2 rfl⟩
  · cases hs
theorem C109_false : ¬ C109Statement := by
  intro h
  obtain ⟨p, s', hd, hm⟩ := exResetToken_delivered
  obtain ⟨x, s2, h1, h2⟩ := h Spec.toy Spec.toy_laws .debug exAppConn exKeys exKeys_lens rfl _ s' p hd exNcid hm exResetToken exReset (by decide +kernel) exReset_is
  exact C109_never_recognised _ _ x h1 h2
/-- Instance for the reachable states: the server of the examples. -/
example : IsReset exResetToken exReset ∧ Connection.Reachable Spec.toy .debug exConn ∧ (decodePackets .release exConn (makeResultStream exReset)).1.isErr = true :=
  ⟨exReset_is, exConn_reachable, by decide +kernel⟩

end QuicSea
