import Verif.Props.Limits
import Verif.Props.ExactRouting
/-
C149: the size of a packet is known before it is written (RFC 9000 section 14: a sender must keep to the size of datagrams that the path and the receiver take).
-/
namespace Spec
open QuicSea

/-- RFC 9000 section 16, table 4: the bytes of the shortest encoding of an integer. -/
def intSize (n : Nat) : Nat := if n < 2 ^ 6 then 1 else if n < 2 ^ 14 then 2 else if n < 2 ^ 30 then 4 else 8

/-- The size of a frame by its fields (RFC 9000 section 19), each integer in its shortest encoding. `last`: the frame ends the packet, so that STREAM needs no Length field. -/
def frameSize (last : Bool) : Frame → Nat
  | .padding | .ping | .handshakeDone => 1
  | .ack x => 1 + intSize x.largestAcknowledged.toNat + intSize x.ackDelay.toNat + intSize x.ackRangeCount.toNat + intSize x.firstAckRange.toNat +
      (x.ackRange.map fun r => intSize r.gap.toNat + intSize r.ackRangeLength.toNat).sum +
      (match x.ecnCounts with
       | some e => intSize e.ect0Count.toNat + intSize e.ect1Count.toNat + intSize e.ecnCeCount.toNat
       | none => 0)
  | .resetStream x => 1 + intSize x.streamId.toNat + intSize x.applicationProtocolErrorCode.toNat + intSize x.finalSize.toNat
  | .stopSending x => 1 + intSize x.streamId.toNat + intSize x.applicationProtocolErrorCode.toNat
  | .crypto x => 1 + intSize x.offset.toNat + intSize x.length.toNat + x.cryptoData.length
  | .newToken x => 1 + intSize x.tokenLength.toNat + x.token.length
  | .stream x => 1 + intSize x.streamId.toNat + (if x.offset = 0 then 0 else intSize x.offset.toNat) + (if last then 0 else intSize x.length.toNat) + x.streamData.length
  | .maxData x => 1 + intSize x.maximumData.toNat
  | .maxStreamData x => 1 + intSize x.streamId.toNat + intSize x.maximumStreamData.toNat
  | .maxStreams x => 1 + intSize x.maximumStreams.toNat
  | .dataBlocked x => 1 + intSize x.maximumData.toNat
  | .streamDataBlocked x => 1 + intSize x.streamId.toNat + intSize x.maximumStreamData.toNat
  | .streamsBlocked x => 1 + intSize x.maximumStreams.toNat
  | .newConnectionId x => 1 + intSize x.sequenceNumber.toNat + intSize x.retirePriorTo.toNat + 1 + x.length.toNat + 16
  | .retireConnectionId x => 1 + intSize x.sequenceNumber.toNat
  | .pathChallenge _ | .pathResponse _ => 9
  | .connectionClose x => 1 + intSize x.errorCode.toNat + (match x.frameType with | some t => intSize t.toNat | none => 0) + intSize x.reasonPhraseLength.toNat + x.reasonPhrase.length

/-- The size of frames one after the other. -/
def payloadSize (last : Bool) : List Frame → Nat
  | [] => 0
  | [f] => frameSize last f
  | f :: fs => frameSize false f + payloadSize last fs

/-- The size of an Initial packet (RFC 9000 section 17.2.2 with a packet number of four bytes, RFC 9001 section 5.3: the tag has 16 bytes). -/
def initialSize (dcid scid token payload : Nat) : Nat :=
  1 + 4 + (1 + dcid) + (1 + scid) + (intSize token + token) + intSize (4 + payload + 16) + 4 + payload + 16

def C149For (P : Prims) : Prop :=
  (∀ (fs : List Frame) (last : Bool) (bs : Bytes), serializeFrames fs last = .ok bs → bs.length = payloadSize last fs) ∧
  ∀ (bp : Profile) (server : Bool) (v : Version) (d : U160) (n : Nat), n ≤ 20 → cidVal d < 256 ^ n → ∀ c0 : Connection, Connection.new P server v d n = .ok c0 →
    ∀ (ops later : List ConnOp) (sc : U160) (sl : Nat), (c0.run bp ops).2.scid = some (sc, sl) → sl ≤ 20 → cidVal sc < 256 ^ sl →
    ∀ (fs : List Frame) (token : Option Bytes) (p : PacketInitial), (PacketInitial.new bp fs token (c0.run bp ops).2).1 = .ok p →
    payloadSize false fs + 20 < 2 ^ 64 → (token.getD []).length < 2 ^ 64 →
    ∀ out, p.serialize (c0.run bp (ops ++ later)).2 = .ok out → out.length = initialSize n sl (token.getD []).length (payloadSize false fs)
/-- C149: frames and Initial packets are written with as many bytes as their fields say, for connections after any history. -/
def C149Statement : Prop := ∀ P, PrimLaws P → C149For P
end Spec

namespace QuicSea
open Spec

theorem encodeVarInt_size {x : U64} {b : Bytes} (h : encodeVarInt x = .ok b) : b.length = intSize x.toNat := by
  obtain ⟨bs, k, e, hk, hl, hx, -, hmin⟩ := encodeVarInt_spec x (encodeVarInt_isVarInt h).lt
  rw [h] at e
  cases e
  rw [hl]
  unfold intSize
  have : k = 0 ∨ k = 1 ∨ k = 2 ∨ k = 3 := by omega
  rcases this with rfl | rfl | rfl | rfl
  · rw [if_pos hx]
  · rw [if_neg (Nat.not_lt.mpr (hmin 0 (by decide))), if_pos hx]
  · rw [if_neg (Nat.not_lt.mpr (hmin 0 (by decide))), if_neg (Nat.not_lt.mpr (hmin 1 (by decide))), if_pos hx]
  · rw [if_neg (Nat.not_lt.mpr (hmin 0 (by decide))), if_neg (Nat.not_lt.mpr (hmin 1 (by decide))), if_neg (Nat.not_lt.mpr (hmin 2 (by decide)))]

theorem ranges_size {rs : List AckRange} {b : Bytes} (h : FrameAck.rangesToBytes rs = .ok b) :
    b.length = (rs.map fun r => intSize r.gap.toNat + intSize r.ackRangeLength.toNat).sum := by
  induction rs generalizing b with
  | nil => cases h; rfl
  | cons r rs ih =>
    obtain ⟨x, hx, h⟩ := Out.bind_eq_ok h
    obtain ⟨y, hy, h⟩ := Out.bind_eq_ok h
    cases h
    obtain ⟨b1, h1, hx⟩ := Out.bind_eq_ok hx
    obtain ⟨b2, h2, hx⟩ := Out.bind_eq_ok hx
    cases hx
    rw [List.map_cons, List.sum_cons, ← ih hy, ← encodeVarInt_size h1, ← encodeVarInt_size h2, List.length_append, List.length_append]

theorem frame_size {f : Frame} {e : Bool} {bs : Bytes} (h : f.toBytes e = .ok bs) : bs.length = frameSize e f := by
  have V := @encodeVarInt_size
  cases f with
  | padding => cases h; rfl
  | ping => cases h; rfl
  | handshakeDone => cases h; rfl
  | ack x =>
    rcases x with ⟨la, ad, rc, fr, rs, ec⟩
    obtain ⟨b5, h5, h⟩ := Out.bind_eq_ok h
    cases ec with
    | none =>
      obtain ⟨_, hp, h⟩ := Out.bind_eq_ok h; cases hp
      obtain ⟨b1, h1, h⟩ := Out.bind_eq_ok h
      obtain ⟨b2, h2, h⟩ := Out.bind_eq_ok h
      obtain ⟨b3, h3, h⟩ := Out.bind_eq_ok h
      obtain ⟨b4, h4, h⟩ := Out.bind_eq_ok h
      cases h
      simp only [frameSize, ← V h1, ← V h2, ← V h3, ← V h4, ← ranges_size h5, List.length_append, List.length_cons, List.length_nil]
    | some e =>
      obtain ⟨b6, h6, h⟩ := Out.bind_eq_ok h
      obtain ⟨_, hp, h⟩ := Out.bind_eq_ok h; cases hp
      obtain ⟨b1, h1, h⟩ := Out.bind_eq_ok h
      obtain ⟨b2, h2, h⟩ := Out.bind_eq_ok h
      obtain ⟨b3, h3, h⟩ := Out.bind_eq_ok h
      obtain ⟨b4, h4, h⟩ := Out.bind_eq_ok h
      cases h
      obtain ⟨c1, g1, h6⟩ := Out.bind_eq_ok h6
      obtain ⟨c2, g2, h6⟩ := Out.bind_eq_ok h6
      obtain ⟨c3, g3, h6⟩ := Out.bind_eq_ok h6
      cases h6
      simp only [frameSize, ← V h1, ← V h2, ← V h3, ← V h4, ← V g1, ← V g2, ← V g3, ← ranges_size h5, List.length_append, List.length_cons, List.length_nil]
  | resetStream x =>
    obtain ⟨b1, h1, h⟩ := Out.bind_eq_ok h
    obtain ⟨b2, h2, h⟩ := Out.bind_eq_ok h
    obtain ⟨b3, h3, h⟩ := Out.bind_eq_ok h
    cases h
    simp [frameSize, ← V h1, ← V h2, ← V h3]; omega
  | stopSending x =>
    obtain ⟨b1, h1, h⟩ := Out.bind_eq_ok h
    obtain ⟨b2, h2, h⟩ := Out.bind_eq_ok h
    cases h
    simp [frameSize, ← V h1, ← V h2]; omega
  | crypto x =>
    obtain ⟨b1, h1, h⟩ := Out.bind_eq_ok h
    obtain ⟨b2, h2, h⟩ := Out.bind_eq_ok h
    cases h
    simp [frameSize, ← V h1, ← V h2]; omega
  | newToken x =>
    obtain ⟨b1, h1, h⟩ := Out.bind_eq_ok h
    cases h
    simp [frameSize, ← V h1]; omega
  | stream x =>
    have h : x.toBytes (!e) = .ok bs := h
    rcases x with ⟨id, off, len, data, fin⟩
    unfold FrameStream.toBytes at h
    dsimp only at h
    obtain ⟨b1, h1, h⟩ := Out.bind_eq_ok h
    by_cases ho : off = 0
    · subst ho
      obtain ⟨_, hp, h⟩ := Out.bind_eq_ok h; cases hp
      cases e with
      | false =>
        obtain ⟨b3, h3, h⟩ := Out.bind_eq_ok h
        cases h
        simp [frameSize, ← V h1, ← V h3]; omega
      | true =>
        obtain ⟨_, hp, h⟩ := Out.bind_eq_ok h; cases hp
        cases h
        simp [frameSize, ← V h1]; omega
    · have hd : decide (off ≠ 0) = true := by simpa using ho
      rw [hd] at h
      obtain ⟨b2, h2, h⟩ := Out.bind_eq_ok h
      cases e with
      | false =>
        obtain ⟨b3, h3, h⟩ := Out.bind_eq_ok h
        cases h
        simp only [frameSize]
        rw [if_neg ho]
        simp [← V h1, ← V h2, ← V h3]; omega
      | true =>
        obtain ⟨_, hp, h⟩ := Out.bind_eq_ok h; cases hp
        cases h
        simp only [frameSize]
        rw [if_neg ho]
        simp [← V h1, ← V h2]; omega
  | maxData x =>
    obtain ⟨b1, h1, h⟩ := Out.bind_eq_ok h
    cases h
    simp [frameSize, ← V h1]; omega
  | maxStreamData x =>
    obtain ⟨b1, h1, h⟩ := Out.bind_eq_ok h
    obtain ⟨b2, h2, h⟩ := Out.bind_eq_ok h
    cases h
    simp [frameSize, ← V h1, ← V h2]; omega
  | maxStreams x =>
    obtain ⟨b1, h1, h⟩ := Out.bind_eq_ok h
    cases h
    simp [frameSize, ← V h1]; omega
  | dataBlocked x =>
    obtain ⟨b1, h1, h⟩ := Out.bind_eq_ok h
    cases h
    simp [frameSize, ← V h1]; omega
  | streamDataBlocked x =>
    obtain ⟨b1, h1, h⟩ := Out.bind_eq_ok h
    obtain ⟨b2, h2, h⟩ := Out.bind_eq_ok h
    cases h
    simp [frameSize, ← V h1, ← V h2]; omega
  | streamsBlocked x =>
    obtain ⟨b1, h1, h⟩ := Out.bind_eq_ok h
    cases h
    simp [frameSize, ← V h1]; omega
  | newConnectionId x =>
    obtain ⟨b1, h1, h⟩ := Out.bind_eq_ok h
    obtain ⟨b2, h2, h⟩ := Out.bind_eq_ok h
    obtain ⟨b3, h3, h⟩ := Out.bind_eq_ok h
    cases h
    have hl : x.length.toNat ≤ 20 := by
      refine Decidable.byContradiction fun q => ?_
      have := toVarBytes_panic x.connectionId x.length.toNat (by omega)
      rw [h3] at this
      cases this
    obtain ⟨b, k1, k2, -⟩ := toVarBytes_spec x.connectionId x.length.toNat hl
    rw [h3] at k1
    cases k1
    simp [frameSize, ← V h1, ← V h2, k2, toBeBytes_length]; omega
  | retireConnectionId x =>
    obtain ⟨b1, h1, h⟩ := Out.bind_eq_ok h
    cases h
    simp [frameSize, ← V h1]; omega
  | pathChallenge x => cases h; rfl
  | pathResponse x => cases h; rfl
  | connectionClose x =>
    rcases x with ⟨ec, ft, rl, rp, ia⟩
    cases ft with
    | none =>
      obtain ⟨_, hp, h⟩ := Out.bind_eq_ok h; cases hp
      obtain ⟨b1, h1, h⟩ := Out.bind_eq_ok h
      obtain ⟨b3, h3, h⟩ := Out.bind_eq_ok h
      cases h
      simp [frameSize, ← V h1, ← V h3]; omega
    | some t =>
      obtain ⟨b2, h2, h⟩ := Out.bind_eq_ok h
      obtain ⟨b1, h1, h⟩ := Out.bind_eq_ok h
      obtain ⟨b3, h3, h⟩ := Out.bind_eq_ok h
      cases h
      simp [frameSize, ← V h1, ← V h2, ← V h3]; omega

/-- C149 for frames; also for frames that no constructor makes. -/
theorem C149_frames (fs : List Frame) (last : Bool) (bs : Bytes) (h : serializeFrames fs last = .ok bs) : bs.length = payloadSize last fs := by
  induction fs generalizing bs with
  | nil => cases h; rfl
  | cons f fs ih =>
    rw [serializeFrames_cons] at h
    obtain ⟨a, ha, h⟩ := Out.bind_eq_ok h
    obtain ⟨b, hb, h⟩ := Out.bind_eq_ok h
    cases h
    have h1 := frame_size ha
    have h2 := ih b hb
    cases fs with
    | nil =>
      cases hb
      simpa [payloadSize] using h1
    | cons g fs =>
      rw [List.length_append, h1, h2]
      simp [payloadSize]

/-- The size of an Initial packet that is written with given keys. -/
theorem initial_written_size {P : Prims} (hP : PrimLaws P) {c : Connection} {k : Keys} (hk : c.localSecrets .initial = .ok (secretsOf P k))
    (hiv : k.iv.length = 12) {p : PacketInitial} (hh : HeaderOk p.header) (hn : p.header.headerByte.toNat % 4 + 1 = p.packetNumberBytes.length) {payload out : Bytes}
    (hpl : serializeFrames p.packetPayload false = .ok payload) (hs : payload.length + 20 < 2 ^ 64) (ht : p.token.length < 2 ^ 64) (h : p.serialize c = .ok out) :
    out.length = 7 + p.header.destinationConnectionIdLength.toNat + p.header.sourceConnectionIdLength.toNat + (intSize p.token.length + p.token.length) +
      intSize (p.packetNumberBytes.length + payload.length + 16) + p.packetNumberBytes.length + payload.length + 16 := by
  rw [initial_serialize_eq] at h
  obtain ⟨pl, e1, h1⟩ := Out.bind_eq_ok h
  obtain ⟨n, e2, h2⟩ := Out.bind_eq_ok h1
  obtain ⟨l, e3, h3⟩ := Out.bind_eq_ok h2
  obtain ⟨lb, e4, h4⟩ := Out.bind_eq_ok h3
  obtain ⟨tl, e5, h5⟩ := Out.bind_eq_ok h4
  rw [hpl] at e1
  cases e1
  obtain ⟨hp, hn'⟩ := pnLength_eq.mp e2
  rw [protectedLen_eq hk] at e3
  cases e3
  rw [hn] at hn'
  subst hn'
  have h4' : p.packetNumberBytes.length ≤ 4 := by omega
  obtain ⟨hb, ⟨vb, d, s, w1, w2, _, w4, w5, _⟩, hprot⟩ := sealTail_sound hk hiv hh hp h4' h5
  have i1 := encodeVarInt_size e4
  have i2 := encodeVarInt_size e5
  rw [ofNat64_toNat (by omega)] at i1 i2
  obtain ⟨m, ct, tag, f1, f2, f3, _⟩ := protected_facts hP hiv hprot
  have hhb : hb.length = 6 + p.header.destinationConnectionIdLength.toNat + p.header.sourceConnectionIdLength.toNat := by
    have := congrArg List.length w1
    simp only [List.length_cons, List.length_append, List.length_nil] at this
    omega
  have hz : (p.packetNumberBytes.zipWith (· ^^^ ·) (maskList m)).length = p.packetNumberBytes.length := by
    rw [List.length_zipWith]
    exact Nat.min_eq_left (by simpa [maskList] using h4')
  rw [show 16 + payload.length + p.packetNumberBytes.length = p.packetNumberBytes.length + payload.length + 16 by omega] at i1
  rw [f1]
  simp only [List.length_cons, List.length_append, hz, f2, f3, hhb, i1, i2]
  omega

/-- C149 for Initial packets. -/
theorem C149_initial (P : Prims) (hP : PrimLaws P) (bp : Profile) (server : Bool) (v : Version) (d : U160) (n : Nat) (hn : n ≤ 20) (hd : cidVal d < 256 ^ n) (c0 : Connection)
    (h0 : Connection.new P server v d n = .ok c0) (ops later : List ConnOp) (sc : U160) (sl : Nat) (hsc : (c0.run bp ops).2.scid = some (sc, sl)) (hs : sl ≤ 20)
    (hs2 : cidVal sc < 256 ^ sl) (fs : List Frame) (token : Option Bytes) (p : PacketInitial) (hb : (PacketInitial.new bp fs token (c0.run bp ops).2).1 = .ok p)
    (hm : payloadSize false fs + 20 < 2 ^ 64) (ht : (token.getD []).length < 2 ^ 64) (out : Bytes) (ho : p.serialize (c0.run bp (ops ++ later)).2 = .ok out) :
    out.length = initialSize n sl (token.getD []).length (payloadSize false fs) := by
  have rs : Connection.Reachable P bp (c0.run bp ops).2 := ⟨server, v, d, n, c0, ops, h0, rfl⟩
  obtain ⟨cid, kl, kr, e1, e2, e3, hc0⟩ := new_ok' h0
  have hk : (c0.run bp (ops ++ later)).2.localSecrets .initial = .ok (secretsOf P kl) := by
    rw [(run_secrets bp _ c0 .initial).1, hc0]; rfl
  have hdc : (c0.run bp ops).2.dcid = (d, n) := by rw [(run_ids bp ops c0).2, hc0]
  have hids : IdsOk (c0.run bp ops).2 := by
    refine ⟨by rw [hdc]; exact hn, by rw [hdc]; exact hd, ?_, ?_⟩
    · intro x hx; rw [hsc] at hx; cases hx; exact hs
    · intro x hx; rw [hsc] at hx; cases hx; exact hs2
  have hkl := initialKeys_lens hP e2
  obtain ⟨sc', sl', i1, i2, i3, i4, i5, i6, i7, i8, i9⟩ := initialNew_facts hb
  obtain ⟨g1, g2⟩ := headerOk_of hids i1 i5
  rw [hsc] at i1
  cases i1
  rw [(reachable_acks rs .initial).1] at i9
  obtain ⟨-, t2, -⟩ := truncatePn_none_ok i9
  have hver : p.header.version.toNat = 1 := by rw [i5]; exact version_nonzero (c0.run bp ops).2.version
  obtain ⟨-, k2⟩ := initial_kind (v := p.header.version) _ ⟨i2, i3⟩ i4 hver
  obtain ⟨payload, hpl, -⟩ := Out.bind_eq_ok ho
  have hps : payload.length = payloadSize false fs := by rw [i7] at hpl; exact C149_frames fs false payload hpl
  have := initial_written_size hP hk hkl.2.1 g1 k2 hpl (by omega) (by rw [i6]; exact ht) ho
  rw [this, t2, i6, hps, i5, hdc]
  dsimp only
  rw [BitVec.toNat_ofNat, BitVec.toNat_ofNat, Nat.mod_eq_of_lt (by omega), Nat.mod_eq_of_lt (by omega)]
  unfold initialSize
  omega

/-- C149 for Initial packets, whatever has been acknowledged and with whatever keys. -/
theorem C149_any_initial {P : Prims} (hP : PrimLaws P) {c : Connection} {k : Keys} (hk : c.localSecrets .initial = .ok (secretsOf P k))
    (hiv : k.iv.length = 12) {p : PacketInitial} (hh : HeaderOk p.header) (hn : p.header.headerByte.toNat % 4 + 1 = p.packetNumberBytes.length) {out : Bytes}
    (hs : payloadSize false p.packetPayload + 20 < 2 ^ 64) (ht : p.token.length < 2 ^ 64) (h : p.serialize c = .ok out) :
    out.length = 7 + p.header.destinationConnectionIdLength.toNat + p.header.sourceConnectionIdLength.toNat + (intSize p.token.length + p.token.length) +
      intSize (p.packetNumberBytes.length + payloadSize false p.packetPayload + 16) + p.packetNumberBytes.length + payloadSize false p.packetPayload + 16 := by
  obtain ⟨payload, hpl, -⟩ := Out.bind_eq_ok h
  have e := C149_frames _ _ _ hpl
  rw [← e] at hs ⊢
  exact initial_written_size hP hk hiv hh hn hpl hs ht h
/-- C149 for Handshake packets, whatever has been acknowledged and with whatever keys: there is no token. -/
theorem C149_any_handshake {P : Prims} (hP : PrimLaws P) {c : Connection} {k : Keys} (hk : c.localSecrets .handshake = .ok (secretsOf P k))
    (hiv : k.iv.length = 12) {p : PacketHandshake} (hh : HeaderOk p.header) (hn : p.header.headerByte.toNat % 4 + 1 = p.packetNumberBytes.length) {payload out : Bytes}
    (hpl : serializeFrames p.packetPayload false = .ok payload) (hs : payload.length + 20 < 2 ^ 64) (h : p.serialize c = .ok out) :
    out.length = 7 + p.header.destinationConnectionIdLength.toNat + p.header.sourceConnectionIdLength.toNat +
      intSize (p.packetNumberBytes.length + payload.length + 16) + p.packetNumberBytes.length + payload.length + 16 := by
  rw [handshake_serialize_eq] at h
  obtain ⟨pl, e1, h1⟩ := Out.bind_eq_ok h
  obtain ⟨n, e2, h2⟩ := Out.bind_eq_ok h1
  obtain ⟨l, e3, h3⟩ := Out.bind_eq_ok h2
  obtain ⟨lb, e4, h4⟩ := Out.bind_eq_ok h3
  rw [hpl] at e1
  cases e1
  obtain ⟨hp, hn'⟩ := pnLength_eq.mp e2
  rw [protectedLen_eq hk] at e3
  cases e3
  rw [hn] at hn'
  subst hn'
  have h4' : p.packetNumberBytes.length ≤ 4 := by omega
  obtain ⟨hb, ⟨vb, d, s, w1, w2, _, w4, w5, _⟩, hprot⟩ := sealTail_sound hk hiv hh hp h4' h4
  have i1 := encodeVarInt_size e4
  rw [ofNat64_toNat (by omega)] at i1
  obtain ⟨m, ct, tag, f1, f2, f3, _⟩ := protected_facts hP hiv hprot
  have hhb : hb.length = 6 + p.header.destinationConnectionIdLength.toNat + p.header.sourceConnectionIdLength.toNat := by
    have := congrArg List.length w1
    simp only [List.length_cons, List.length_append, List.length_nil] at this
    omega
  have hz : (p.packetNumberBytes.zipWith (· ^^^ ·) (maskList m)).length = p.packetNumberBytes.length := by
    rw [List.length_zipWith]
    exact Nat.min_eq_left (by simpa [maskList] using h4')
  rw [show 16 + payload.length + p.packetNumberBytes.length = p.packetNumberBytes.length + payload.length + 16 by omega] at i1
  rw [f1]
  simp only [List.length_cons, List.length_append, hz, f2, f3, hhb, i1]
  omega

/-- C149. -/
theorem C149_all : C149Statement := fun P hP => ⟨C149_frames, C149_initial P hP⟩

/-- Before a packet is written it is known whether the socket of the receiver hands it over whole (C60). -/
theorem C149_fits (P : Prims) (hP : PrimLaws P) (bp : Profile) (server : Bool) (v : Version) (d : U160) (n : Nat) (hn : n ≤ 20) (hd : cidVal d < 256 ^ n) (c0 : Connection)
    (h0 : Connection.new P server v d n = .ok c0) (ops later : List ConnOp) (sc : U160) (sl : Nat) (hsc : (c0.run bp ops).2.scid = some (sc, sl)) (hs : sl ≤ 20)
    (hs2 : cidVal sc < 256 ^ sl) (fs : List Frame) (token : Option Bytes) (p : PacketInitial) (hb : (PacketInitial.new bp fs token (c0.run bp ops).2).1 = .ok p)
    (hm : payloadSize false fs + 20 < 2 ^ 64) (ht : (token.getD []).length < 2 ^ 64) (out : Bytes) (ho : p.serialize (c0.run bp (ops ++ later)).2 = .ok out) (k : Sock) (addr : Nat) :
    (k.recvDatagram (.datagram out addr)).1 = .ok ⟨out, addr⟩ ↔ initialSize n sl (token.getD []).length (payloadSize false fs) ≤ 4096 := by
  rw [C60_exact, C149_initial P hP bp server v d n hn hd c0 h0 ops later sc sl hsc hs hs2 fs token p hb hm ht out ho]

/-- A packet of 49 bytes and its size beforehand; and frames with integers of all four sizes. -/
example : Connection.new toy false .v1 ⟨0, 0x0102030405060708⟩ 8 = .ok exClient ∧ HasScid (exClient.run .debug exOps).2 ∧
    (match exSend [.crypto ⟨0, 3, [1, 2, 3]⟩, .ping] with | .ok (out, .initial q) => decide (out.length = initialSize 8 2 q.token.length (payloadSize false q.packetPayload)) | _ => false) = true ∧
    payloadSize true [.maxData ⟨63⟩, .maxData ⟨64⟩, .maxData ⟨2 ^ 14⟩, .maxData ⟨2 ^ 30⟩, .stream ⟨4, 0, 2, [7, 7], true⟩] = 23 ∧
    (match serializeFrames [.maxData ⟨63⟩, .maxData ⟨64⟩, .maxData ⟨2 ^ 14⟩, .maxData ⟨2 ^ 30⟩, .stream ⟨4, 0, 2, [7, 7], true⟩] true with | .ok bs => bs.length | _ => 0) = 23 :=
  ⟨exClient_new, exScid, by decide +kernel, by decide +kernel, by decide +kernel⟩
end QuicSea
