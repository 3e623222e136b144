import Verif.Props.Conform
import Verif.Props.Endpoint
import Verif.Props.TransportParameters
/-
C83, C84, C87: sizes and limits RFC 9000 asks for.
-/
namespace Spec
open QuicSea (TransportParameter)

/-- RFC 9000 section 18.2: the values parameters may have (a connection id has at most 20 bytes; a `max_streams` above 2^60 cannot be expressed). -/
def ParamAllowed : TransportParameter → Prop
  | .originalDestinationConnectionId x | .initialSourceConnectionId x | .retrySourceConnectionId x => x.length ≤ 20
  | .maxUdpPayloadSize x => 1200 ≤ x.toNat
  | .initialMaxStreamsBidi x | .initialMaxStreamsUni x => x.toNat ≤ 2 ^ 60
  | .ackDelayExponent x => x.toNat ≤ 20
  | .maxAckDelay x => x.toNat < 2 ^ 14
  | .preferredAddress x => 1 ≤ x.connectionId.length ∧ x.connectionId.length ≤ 20
  | .activeConnectionIdLimit x => 2 ≤ x.toNat
  | .maxIdleTimeout _ | .statelessResetToken _ | .initialMaxData _ | .initialMaxStreamDataBidiLocal _ | .initialMaxStreamDataBidiRemote _
  | .initialMaxStreamDataUni _ | .disableActiveMigration => True

instance (p : TransportParameter) : Decidable (ParamAllowed p) := by
  cases p <;> unfold ParamAllowed <;> infer_instance
end Spec

namespace QuicSea
open Spec Sock

/-! ## C83 -/

/-- The size of an Initial packet on the wire: the fields of RFC 9000 section 17.2.2 and the 16 bytes of the AEAD tag. -/
theorem wire_size {P : Prims} (hP : PrimLaws P) {k : Keys} (hiv : k.iv.length = 12) {h : LongPacketHeader} {token pnB : Bytes} {pn : U64} {payload out : Bytes}
    (hw : InitialWire P k h token pnB pn.toNat payload out) :
    ∃ tl lb : Bytes, IsVarInt tl token.length ∧ IsVarInt lb (pnB.length + payload.length + 16) ∧ pnB.length ≤ 4 ∧
      out.length = 7 + h.destinationConnectionIdLength.toNat + h.sourceConnectionIdLength.toNat + tl.length + token.length + lb.length +
        pnB.length + payload.length + 16 := by
  obtain ⟨hb, tl, lb, ⟨vb, d, s, w1, w2, _, w4, w5, _⟩, _, w7, w8, w9, w10⟩ := hw
  obtain ⟨m, ct, tag, f1, f2, f3, _⟩ := protected_facts hP hiv w10
  have hhb : hb.length = 6 + h.destinationConnectionIdLength.toNat + h.sourceConnectionIdLength.toNat := by
    have := congrArg List.length w1
    simp only [List.length_cons, List.length_append, List.length_nil] at this
    omega
  have hp4 : pnB.length ≤ 4 := by omega
  refine ⟨tl, lb, w8, w9, hp4, ?_⟩
  have hz : (pnB.zipWith (· ^^^ ·) (maskList m)).length = pnB.length := by
    rw [List.length_zipWith]
    exact Nat.min_eq_left (by simpa [maskList] using hp4)
  rw [f1]
  simp only [List.length_cons, List.length_append, hz, f2, f3, hhb]
  omega

/-- C83, full statement (RFC 9000 section 14.1): a client's Initial packets fill datagrams of at least 1200 bytes. (The crate has no code that puts several
packets or padding into a datagram: what is sent is the serialized packet.) -/
def C83For (P : Prims) : Prop := ∀ (bp : Profile) (v : Version) (d : U160) (n : Nat), n ≤ 20 → cidVal d < 256 ^ n →
  ∀ (c0 : Connection), Connection.new P false v d n = .ok c0 → ∀ (ops : List ConnOp), HasScid (c0.run bp ops).2 → ∀ (fs : List Frame),
  (∀ f ∈ fs, WellFormed f) → ∀ (token : Option Bytes) (p : PacketInitial), (PacketInitial.new bp fs token (c0.run bp ops).2).1 = .ok p →
  ∀ out, p.serialize (c0.run bp ops).2 = .ok out → 1200 ≤ out.length
/-- The claim, for all algorithms that obey the laws. -/
def C83Statement : Prop := ∀ P, PrimLaws P → C83For P

/-- The exact size of every Initial packet a connection builds, by the sizes of its parts: nothing is added. -/
theorem C83_exact_size (P : Prims) (hP : PrimLaws P) (bp : Profile) (server : Bool) (v : Version) (d : U160) (n : Nat) (hn : n ≤ 20)
    (hd : cidVal d < 256 ^ n) (c0 : Connection) (h0 : Connection.new P server v d n = .ok c0) (ops later : List ConnOp)
    (sc : U160) (sl : Nat) (hsc : (c0.run bp ops).2.scid = some (sc, sl)) (hs : sl ≤ 20 ∧ cidVal sc < 256 ^ sl) (fs : List Frame) (hw : ∀ f ∈ fs, WellFormed f)
    (token : Option Bytes) (hl : ∀ bs, serializeFrames fs false = .ok bs → bs.length < 2 ^ 30) (ht : (token.getD []).length < 2 ^ 28)
    (p : PacketInitial) (hb : (PacketInitial.new bp fs token (c0.run bp ops).2).1 = .ok p) :
    ∃ payload tl lb out, FramesWire fs payload ∧ serializeFrames fs false = .ok payload ∧ IsVarInt tl (token.getD []).length ∧ IsVarInt lb (payload.length + 20) ∧
      p.serialize (c0.run bp (ops ++ later)).2 = .ok out ∧
      out.length = 27 + n + sl + tl.length + (token.getD []).length + lb.length + payload.length := by
  have rs : Connection.Reachable P bp (c0.run bp ops).2 := ⟨server, v, d, n, c0, ops, h0, rfl⟩
  obtain ⟨cid, kl, kr, e1, e2, e3, hc0⟩ := new_ok' h0
  obtain ⟨payload, hpl⟩ := serialize_ok false hw
  have hk : (c0.run bp (ops ++ later)).2.localSecrets .initial = .ok (secretsOf P kl) := by
    rw [(run_secrets bp _ c0 .initial).1, hc0]; rfl
  have hdc : (c0.run bp ops).2.dcid = (d, n) := by rw [(run_ids bp ops c0).2, hc0]
  have hids : IdsOk (c0.run bp ops).2 := by
    refine ⟨by rw [hdc]; exact hn, by rw [hdc]; exact hd, ?_, ?_⟩
    · intro x hx; rw [hsc] at hx; cases hx; exact hs.1
    · intro x hx; rw [hsc] at hx; cases hx; exact hs.2
  have hkl := initialKeys_lens hP e2
  obtain ⟨out, o1, o2, o3, o4, _, o6, _⟩ := built_initial hP hk hkl hids (reachable_acks rs .initial).1 hb hpl (hl _ hpl) ht
  rw [o6] at o2
  obtain ⟨tl, lb, w1, w2, w3, w4⟩ := wire_size hP hkl.2.1 o2
  obtain ⟨sc', sl', i1, _, _, _, i5, _⟩ := initialNew_facts hb
  rw [hsc] at i1
  cases i1
  refine ⟨payload, tl, lb, out, C16_payload_layout fs false payload (fun f hf => (hw f hf).2) hpl, hpl, w1, ?_, o1, ?_⟩
  · rw [o3] at w2
    rwa [show 4 + payload.length + 16 = payload.length + 20 from by omega] at w2
  · rw [w4, i5, hdc, o3]
    dsimp only
    rw [BitVec.toNat_ofNat, BitVec.toNat_ofNat, Nat.mod_eq_of_lt (by omega), Nat.mod_eq_of_lt (by omega)]
    omega

theorem varInt_len_bounds {bs : Bytes} {v : Nat} (h : IsVarInt bs v) : 1 ≤ bs.length ∧ bs.length ≤ 8 := by
  obtain ⟨k, hk, hl, -⟩ := h
  rw [hl]
  have : k = 0 ∨ k = 1 ∨ k = 2 ∨ k = 3 := by omega
  rcases this with rfl | rfl | rfl | rfl <;> decide

/-- C83 fails for every client, after every history, whenever frames and token have at most 1000 bytes together. -/
theorem C83_small_packets (P : Prims) (hP : PrimLaws P) (bp : Profile) (v : Version) (d : U160) (n : Nat) (hn : n ≤ 20)
    (hd : cidVal d < 256 ^ n) (c0 : Connection) (h0 : Connection.new P false v d n = .ok c0) (ops : List ConnOp)
    (hs : HasScid (c0.run bp ops).2) (fs : List Frame) (hw : ∀ f ∈ fs, WellFormed f)
    (token : Option Bytes) (hl : ∀ bs, serializeFrames fs false = .ok bs → bs.length + (token.getD []).length ≤ 1000)
    (p : PacketInitial) (hb : (PacketInitial.new bp fs token (c0.run bp ops).2).1 = .ok p) :
    ∃ out, p.serialize (c0.run bp ops).2 = .ok out ∧ out.length < 1200 := by
  obtain ⟨sc, sl, e1, e2, e3⟩ := hs
  obtain ⟨payload, hpl⟩ := serialize_ok false hw
  have hle := hl payload hpl
  obtain ⟨payload', tl, lb, out, _, g1, g2, g3, g4, g5⟩ := C83_exact_size P hP bp false v d n hn hd c0 h0 ops [] sc sl e1 ⟨e2, e3⟩ fs hw token
    (fun bs hbs => by have := hl bs hbs; omega) (by omega) p hb
  rw [hpl] at g1
  cases g1
  rw [List.append_nil] at g4
  refine ⟨out, g4, ?_⟩
  have := varInt_len_bounds g2
  have := varInt_len_bounds g3
  omega

/-- **C83, partial**: with at least 1171 bytes of frames (the caller adding PADDING frames) the packet has 1200 bytes, whatever the ids and token.
Missing: smaller payloads, which the code does not pad (`C83_small_packets`). -/
theorem C83_padded_partial (P : Prims) (hP : PrimLaws P) (bp : Profile) (v : Version) (d : U160) (n : Nat) (hn : n ≤ 20)
    (hd : cidVal d < 256 ^ n) (c0 : Connection) (h0 : Connection.new P false v d n = .ok c0) (ops : List ConnOp)
    (hs : HasScid (c0.run bp ops).2) (fs : List Frame) (hw : ∀ f ∈ fs, WellFormed f)
    (token : Option Bytes) (hl : ∀ bs, serializeFrames fs false = .ok bs → 1171 ≤ bs.length ∧ bs.length < 2 ^ 30) (ht : (token.getD []).length < 2 ^ 28)
    (p : PacketInitial) (hb : (PacketInitial.new bp fs token (c0.run bp ops).2).1 = .ok p) :
    ∃ out, p.serialize (c0.run bp ops).2 = .ok out ∧ 1200 ≤ out.length := by
  obtain ⟨sc, sl, e1, e2, e3⟩ := hs
  obtain ⟨payload', tl, lb, out, _, g1, g2, g3, g4, g5⟩ := C83_exact_size P hP bp false v d n hn hd c0 h0 ops [] sc sl e1 ⟨e2, e3⟩ fs hw token
    (fun bs hbs => (hl bs hbs).2) ht p hb
  rw [List.append_nil] at g4
  refine ⟨out, g4, ?_⟩
  have := (hl _ g1).1
  have := varInt_len_bounds g2
  have := varInt_len_bounds g3
  omega

theorem C83_false : ¬ C83Statement := by
  intro h
  obtain ⟨p, hp⟩ := C31_builds Spec.toy .debug false .v1 ⟨0, 0x0102030405060708⟩ 8 exClient exClient_new exOps (by decide) exScid [.ping] none
  obtain ⟨out, h1, h2⟩ := C83_small_packets toy toy_laws .debug .v1 ⟨0, 0x0102030405060708⟩ 8 (by decide) (by decide +kernel) exClient exClient_new exOps exScid
    [.ping] (by decide +kernel) none
    (by intro bs hbs
        have e : serializeFrames [.ping] false = .ok [1] := by decide +kernel
        rw [e] at hbs; cases hbs; decide) p hp
  have := h toy toy_laws .debug .v1 ⟨0, 0x0102030405060708⟩ 8 (by decide) (by decide +kernel) exClient exClient_new exOps exScid
    [.ping] (by decide +kernel) none p hp out h1
  omega

/-- The size of a packet with one PING frame, computed: 27 + 8 + 2 + 1 + 0 + 1 + 1. -/
example : (match (PacketInitial.new .debug [.ping] none (exClient.run .debug exOps).2).1 with
    | .ok p => (match p.serialize (exClient.run .debug exOps).2 with | .ok out => out.length | _ => 0)
    | _ => 0) = 40 := by decide +kernel
/-- The hypotheses of `C83_padded_partial` are met by 1171 PADDING frames. -/
example : (match serializeFrames (List.replicate 1171 .padding) false with | .ok bs => decide (bs.length = 1171) | _ => false) = true := by decide +kernel

/-! ## C84 -/

/-- C84, full statement (RFC 9000 section 7.2: the destination id of a client's first packets has at least 8 bytes): an Initial packet with a shorter one opens
no connection. -/
def C84For (P : Prims) : Prop := ∀ (k k' : Sock) (raw : Bytes) (addr : Nat) (net' : List NetEvent) (v : U32)
  (d s : Bytes) (rng rng' : List U64) (r : Io U160), OpensWith (seen raw addr).data v d s → d.length < 8 →
  k.accept P [.datagram raw addr] rng = (r, k', net', rng') → ∀ key, k.streams key = none → k'.streams key = none
/-- The claim, for all algorithms that obey the laws. -/
def C84Statement : Prop := ∀ P, PrimLaws P → C84For P

/-- C84 is false for every id, also the empty one: the connection is opened, and its keys and its destination id are made from the short id. -/
theorem C84_short_ids_open (P : Prims) (hP : PrimLaws P) (k k' : Sock) (raw : Bytes) (addr : Nat) (net net' : List NetEvent) (v : U32)
    (d s : Bytes) (srcId : U64) (rng rng' : List U64) (r : Io U160) (ho : OpensWith (seen raw addr).data v d s)
    (hn : ∀ key, cidVal key = beNat d → k.streams key = none) (hf : ∀ key, cidVal key = srcId.toNat → k.streams key = none)
    (h : k.accept P (.datagram raw addr :: net) (srcId :: rng) = (r, k', net', rng')) :
    ∃ key x, k.streams key = none ∧ k'.streams key = some x ∧ x.connection.dcid.2 = d.length ∧ cidVal x.connection.dcid.1 = beNat d := by
  obtain ⟨key, c, dcid, a1, a2, a3, a4, a5⟩ := accepted hP (opens_addressed ho) hn hf h
  obtain ⟨_, _, _, _, _, _, hc⟩ := new_ok' a3
  refine ⟨key, _, hf key a1, a4, ?_, ?_⟩
  · rw [hc]
  · rw [hc]; exact a2

/-- A datagram that starts with no header changes nothing. -/
theorem accept_malformed {P : Prims} {k k' : Sock} {raw : Bytes} {addr : Nat} {net' : List NetEvent} {rng rng' : List U64} {r : Io U160}
    (hm : Malformed (seen raw addr).data) (h : k.accept P [.datagram raw addr] rng = (r, k', net', rng')) : k'.streams = k.streams := by
  obtain ⟨p, hp⟩ := recv_datagram k raw addr
  obtain ⟨e, he⟩ := route_malformed (k := { k with printed := p }) hm
  unfold Sock.accept at h
  rw [recvNewInitialDatagram, hp] at h
  dsimp only at h
  rw [show (⟨raw.take RECV_BUFFER_LEN, addr⟩ : Datagram) = seen raw addr from rfl, isNew_malformed hm] at h
  dsimp only at h
  rw [he] at h
  cases h
  rfl

/-- **C84, partial**: the other limit is kept, ids of more than 20 bytes open nothing. Missing: the lower limit (`C84_short_ids_open`). -/
theorem C84_long_ids_partial (P : Prims) (k k' : Sock) (first : U8) (vb : Bytes) (dl : U8) (rest : Bytes) (addr : Nat) (net' : List NetEvent)
    (rng rng' : List U64) (r : Io U160) (hf : 128 ≤ first.toNat) (hv : vb.length = 4) (hv0 : beNat vb ≠ 0) (hdl : 20 < dl.toNat)
    (h : k.accept P [.datagram ([first] ++ vb ++ [dl] ++ rest) addr] rng = (r, k', net', rng')) : k'.streams = k.streams := by
  refine accept_malformed ?_ h
  have hs : (seen ([first] ++ vb ++ [dl] ++ rest) addr).data = [first] ++ vb ++ [dl] ++ rest.take 4090 := by
    show ([first] ++ vb ++ [dl] ++ rest).take 4096 = _
    rw [List.take_append, List.take_of_length_le (by simp [hv])]
    congr 2
    simp [hv]
  rw [hs]
  rintro ⟨kind, d, ⟨f, r', e, hf', _⟩ | ⟨f, vb', dl', sl, s, r', version, e, _, h4, hver, hd, _, hle, _⟩⟩
  · simp only [List.cons_append, List.cons.injEq] at e
    rw [e.1] at hf; omega
  · simp only [List.append_assoc] at e
    obtain ⟨-, e⟩ := List.append_inj e rfl
    obtain ⟨e1, e⟩ := List.append_inj e (by rw [hv, h4])
    simp only [List.singleton_append, List.cons.injEq] at e
    rw [e1, hver] at hv0
    have := (hle hv0).1
    rw [hd, ← e.1] at this
    omega

/-- An Initial packet with an empty destination id. -/
def exShortId : Bytes := [0xc3, 0, 0, 0, 1, 0, 2, 9, 9, 0]
theorem exShortId_opens : OpensWith (seen exShortId 1).data 1 [] [9, 9] := ⟨0xc3, [0, 0, 0, 1], 0, 2, [0], by decide +kernel⟩
theorem C84_false : ¬ C84Statement := by
  intro h
  obtain ⟨key, x, h1, h2, -⟩ := C84_short_ids_open toy toy_laws Sock.bind _ exShortId 1 [] _ _ _ _ 7 [] _ _ exShortId_opens (fun _ _ => rfl) (fun _ _ => rfl) rfl
  have := h toy toy_laws Sock.bind _ exShortId 1 _ _ _ _ [7] _ _ exShortId_opens (by decide) rfl key h1
  rw [h2] at this
  cases this
/-- The hypotheses of `C84_long_ids_partial`: an id of 21 bytes. -/
example : 128 ≤ (0xc3 : U8).toNat ∧ beNat [0, 0, 0, 1] ≠ 0 ∧ 20 < (21 : U8).toNat := by decide

/-! ## C87 -/

/-- C87, full statement (RFC 9000 section 18.2): only allowed values are encoded. -/
def C87Statement : Prop := ∀ (p : TransportParameter) (bs : Bytes), p.serialize = .ok bs → ParamAllowed p

/-- C87 is false for every disallowed value that is an integer of the encoding: it is encoded as if it were allowed. -/
theorem C87_encoded_anyway (p : TransportParameter) (hm : InMemory p) (_hbad : ¬ ParamAllowed p) (hi : ∀ n, paramInt p = some n → n < 2 ^ 62)
    (hl : paramRawLen p < 2 ^ 62) : ∃ bs, p.serialize = .ok bs ∧ ParamTLV p bs := by
  obtain ⟨bs, h⟩ := (C40_fails_exactly p hm).1.mpr ⟨hi, hl⟩
  exact ⟨bs, h, C40_format p hm h⟩

/-- Instances: every value of the limited parameters that the RFC forbids. -/
theorem C87_every_bad_value (x : U64) (hx : x.toNat < 2 ^ 62) :
    (x.toNat < 1200 → ¬ ParamAllowed (.maxUdpPayloadSize x) ∧ ∃ bs, (TransportParameter.maxUdpPayloadSize x).serialize = .ok bs) ∧
    (20 < x.toNat → ¬ ParamAllowed (.ackDelayExponent x) ∧ ∃ bs, (TransportParameter.ackDelayExponent x).serialize = .ok bs) ∧
    (2 ^ 14 ≤ x.toNat → ¬ ParamAllowed (.maxAckDelay x) ∧ ∃ bs, (TransportParameter.maxAckDelay x).serialize = .ok bs) ∧
    (x.toNat < 2 → ¬ ParamAllowed (.activeConnectionIdLimit x) ∧ ∃ bs, (TransportParameter.activeConnectionIdLimit x).serialize = .ok bs) ∧
    (2 ^ 60 < x.toNat → ¬ ParamAllowed (.initialMaxStreamsBidi x) ∧ ¬ ParamAllowed (.initialMaxStreamsUni x) ∧
      (∃ bs, (TransportParameter.initialMaxStreamsBidi x).serialize = .ok bs) ∧ ∃ bs, (TransportParameter.initialMaxStreamsUni x).serialize = .ok bs) := by
  have key : ∀ p : TransportParameter, paramInt p = some x.toNat → ¬ ParamAllowed p → ∃ bs, p.serialize = .ok bs := by
    intro p hp hb
    have hm : InMemory p := by cases p <;> simp [paramInt] at hp <;> simp [InMemory, paramBytesLen]
    obtain ⟨bs, h, -⟩ := C87_encoded_anyway p hm hb (by intro n hn; rw [hp] at hn; cases hn; exact hx)
      (by cases p <;> simp [paramInt] at hp <;> simp [paramRawLen])
    exact ⟨bs, h⟩
  refine ⟨fun h => ?_, fun h => ?_, fun h => ?_, fun h => ?_, fun h => ?_⟩
  · have hb : ¬ ParamAllowed (.maxUdpPayloadSize x) := by simp only [ParamAllowed]; omega
    exact ⟨hb, key _ rfl hb⟩
  · have hb : ¬ ParamAllowed (.ackDelayExponent x) := by simp only [ParamAllowed]; omega
    exact ⟨hb, key _ rfl hb⟩
  · have hb : ¬ ParamAllowed (.maxAckDelay x) := by simp only [ParamAllowed]; omega
    exact ⟨hb, key _ rfl hb⟩
  · have hb : ¬ ParamAllowed (.activeConnectionIdLimit x) := by simp only [ParamAllowed]; omega
    exact ⟨hb, key _ rfl hb⟩
  · have hb : ¬ ParamAllowed (.initialMaxStreamsBidi x) := by simp only [ParamAllowed]; omega
    have hb' : ¬ ParamAllowed (.initialMaxStreamsUni x) := by simp only [ParamAllowed]; omega
    exact ⟨hb, hb', key _ rfl hb, key _ rfl hb'⟩

theorem C87_false : ¬ C87Statement := by
  intro h
  obtain ⟨hb, bs, hs⟩ := (C87_every_bad_value 21 (by decide)).2.1 (by decide)
  exact hb (h _ bs hs)

/-- **C87, partial**: the limit of the integer encoding itself is kept, and parameters without limits of their own are encoded exactly up to it. Missing: the limits
of the single parameters (`C87_encoded_anyway`). -/
theorem C87_encoding_limit_partial (p : TransportParameter) (hm : InMemory p) (n : Nat) (hn : paramInt p = some n) :
    (∃ bs, p.serialize = .ok bs) ↔ n < 2 ^ 62 := by
  rw [(C40_fails_exactly p hm).1]
  constructor
  · intro h; exact h.1 n hn
  · intro h
    refine ⟨fun m hm' => by rw [hn] at hm'; cases hm'; exact h, ?_⟩
    cases p <;> simp [paramInt] at hn <;> simp [paramRawLen]

/-- Allowed and forbidden values of one parameter, both encoded. -/
example : ParamAllowed (.ackDelayExponent 3) ∧ ¬ ParamAllowed (.ackDelayExponent 21) ∧ (TransportParameter.ackDelayExponent 3).serialize = .ok [10, 1, 3] ∧
    (TransportParameter.ackDelayExponent 21).serialize = .ok [10, 1, 21] := by decide +kernel

end QuicSea
