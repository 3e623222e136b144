import Verif.Props.Write
/-
C129: are packets still delivered once acknowledgements and received numbers are recorded? Nothing in the crate records them yet (C119, C125), but the
fields are there, and building and decoding use them.
-/
namespace Spec
open QuicSea

/-- Whether a packet with number `n` arrives, when the sender has `a` as acknowledged and the receiver has `x` as the largest number: its number must take
four bytes, and the code must read it back. -/
def Arrives (a x : Option Nat) (n : Nat) : Prop :=
  (∀ a', a = some a' → 2 ^ 24 ≤ n - a') ∧
  match x with
  | none => n < 2 ^ 32
  | some x => 16 * (x / 16 + if x / 2 ^ 32 < n % 2 ^ 32 then 0 else 1) % 2 ^ 64 = n - n % 2 ^ 32

end Spec

namespace QuicSea
open Spec

/-- Any Initial packet that was built for a connection with proper ids, and written with any keys, is an RFC packet. -/
theorem built_initial_wire {P : Prims} {bp : Profile} {c c' : Connection} {k : Keys} (hk : c'.localSecrets .initial = .ok (secretsOf P k))
    (hkl : KeyLens k) (hc : IdsOk c) {fs : List Frame} {token : Option Bytes} {p : PacketInitial}
    (hb : (PacketInitial.new bp fs token c).1 = .ok p) {payload : Bytes} (hpl : serializeFrames fs false = .ok payload)
    (hs : payload.length + 20 < 2 ^ 64) (ht : (token.getD []).length < 2 ^ 64) {out : Bytes} (ho : p.serialize c' = .ok out) :
    InitialWire P k p.header p.token p.packetNumberBytes p.packetNumber.toNat payload out ∧ p.header.isProtected = false := by
  obtain ⟨sc, sl, e1, e2, e3, e4, e5, e6, e7, e8, e9⟩ := initialNew_facts hb
  obtain ⟨g1, g2⟩ := headerOk_of hc e1 e5
  have hver : p.header.version.toNat = 1 := by rw [e5]; exact version_nonzero c.version
  obtain ⟨k1, k2⟩ := initial_kind (v := p.header.version) _ ⟨e2, e3⟩ e4 hver
  rw [← e7] at hpl
  rw [← e6] at ht
  exact ⟨initial_serialize_wire hk hkl.2.1 g1 k1 k2 hpl hs ht ho, g2⟩
theorem built_handshake_wire {P : Prims} {bp : Profile} {c c' : Connection} {k : Keys} (hk : c'.localSecrets .handshake = .ok (secretsOf P k))
    (hkl : KeyLens k) (hc : IdsOk c) {fs : List Frame} {p : PacketHandshake}
    (hb : (PacketHandshake.new bp fs c).1 = .ok p) {payload : Bytes} (hpl : serializeFrames fs false = .ok payload)
    (hs : payload.length + 20 < 2 ^ 64) {out : Bytes} (ho : p.serialize c' = .ok out) :
    HandshakeWire P k p.header p.packetNumberBytes p.packetNumber.toNat payload out ∧ p.header.isProtected = false := by
  obtain ⟨sc, sl, e1, e2, e3, e4, e5, e7, e8, e9⟩ := handshakeNew_facts hb
  obtain ⟨g1, g2⟩ := headerOk_of hc e1 e5
  have hver : p.header.version.toNat = 1 := by rw [e5]; exact version_nonzero c.version
  obtain ⟨k1, k2⟩ := handshake_kind (v := p.header.version) _ ⟨e2, e3⟩ e4 hver
  rw [← e7] at hpl
  exact ⟨handshake_serialize_wire hk hkl.2.1 g1 k1 k2 hpl hs ho, g2⟩

/-- The two ways to say it. -/
theorem arrives_iff (bp : Profile) (a x : Option Nat) (n : Nat) (b : Bytes) (hx : ∀ x', x = some x' → x' < 2 ^ 64) (hn : n < 2 ^ 64) (hb : NumberBytes a n b)
    (h4 : b.length ≤ 4) : (b.length = 4 ∧ NumberRead bp x b n) ↔ Arrives a x n := by
  have hlen : b.length = 4 ↔ ∀ a', a = some a' → 2 ^ 24 ≤ n - a' := by
    cases a with
    | none => exact ⟨fun _ => nofun, fun _ => hb.2.1⟩
    | some a =>
      obtain ⟨h1, h2, h3, -⟩ := hb
      constructor
      · rintro h a' ha
        cases ha
        rw [h] at h3
        exact h3
      · intro h
        have h' := h a rfl
        refine Nat.le_antisymm h4 (Nat.not_lt.mp fun hlt => ?_)
        have : (256 : Nat) ^ b.length ≤ 256 ^ 3 := Nat.pow_le_pow_right (by decide) (by omega)
        omega
  have hval : b.length = 4 → beNat b = n % 2 ^ 32 := by
    intro h
    cases a with
    | none => rw [hb.2.2]; exact (Nat.mod_eq_of_lt hb.1).symm
    | some a => have := hb.2.2.2; rw [h] at this; exact this
  unfold Arrives
  rw [← hlen]
  refine and_congr_right fun h => ?_
  have hv := hval h
  cases x with
  | none =>
    show beNat b = n ↔ n < 2 ^ 32
    rw [hv]
    omega
  | some x =>
    have hx' := hx x rfl
    have hne : b ≠ [] := by intro e; rw [e] at h; cases h
    simp only [NumberRead, hv, h]
    show _ ↔ 16 * _ % 2 ^ 64 = _
    rw [show (2 : Nat) ^ 4 = 16 from rfl]
    generalize 16 * (x / 16 + if x / 2 ^ 32 < n % 2 ^ 32 then 0 else 1) = B
    constructor
    · rintro ⟨h1, -⟩
      omega
    · intro h1
      exact ⟨by omega, fun _ => ⟨by omega, fun e => absurd e hne⟩⟩

theorem ack_lt {o : Option U64} : ∀ x', o.map BitVec.toNat = some x' → x' < 2 ^ 64 := by
  intro x' h
  cases o with
  | none => cases h
  | some y => cases h; exact y.isLt

/-- **C129, exactly**, for Initial packets: whatever the sender and the receiver have recorded, the packet is delivered as it was built if and only if `Arrives`. -/
theorem C129_initial_exact (P : Prims) (hP : PrimLaws P) (bp bp' : Profile) (cs cs' cr : Connection) (k : Keys) (hkl : KeyLens k)
    (hl : cs'.localSecrets .initial = .ok (secretsOf P k)) (hr : cr.remoteSecrets .initial = .ok (secretsOf P k)) (hc : IdsOk cs)
    (fs : List Frame) (token : Option Bytes) (p : PacketInitial) (hb : (PacketInitial.new bp fs token cs).1 = .ok p) (payload out : Bytes)
    (hpl : serializeFrames fs false = .ok payload) (hs : payload.length + 20 < 2 ^ 64) (ht : (token.getD []).length < 2 ^ 64)
    (hf : (deserializeFrames (makeResultStream payload)).1 = .ok fs) (ho : p.serialize cs' = .ok out) (s : Stream) :
    decodeNextPacket bp' cr (makeResultStream out ++ s) = (.ok (.initial p), s) ↔
      Arrives ((cs.pnInfo .initial).largestLocalAck.map BitVec.toNat) ((cr.pnInfo .initial).largestRemoteAck.map BitVec.toNat) p.packetNumber.toNat := by
  obtain ⟨hw, hp⟩ := built_initial_wire hl hkl hc hb hpl hs ht ho
  obtain ⟨-, h2, -, h4, -, -, h7⟩ := (C126_initial bp cs fs token p).mp hb
  rw [← arrives_iff bp' _ _ _ _ ack_lt p.packetNumber.isLt h2 h4, ← reconstruct_reads bp' cr .initial h4]
  constructor
  · intro e
    have := initial_short hP hr hkl.2.1 hp hw e
    obtain ⟨_, _, _, _, _, _, _, _, _, _, _, _, _, _, _, _, g, _⟩ := initial_opened hr hkl.2.1 e
    exact ⟨by omega, g⟩
  · rintro ⟨h5, h6⟩
    have := decodeNext_initial_reads hP hr hkl.2.1 hp hw h5 h6 hf s
    rw [this, ← h7]

/-- **C129, exactly**, for Handshake packets. -/
theorem C129_handshake_exact (P : Prims) (hP : PrimLaws P) (bp bp' : Profile) (cs cs' cr : Connection) (k : Keys) (hkl : KeyLens k)
    (hl : cs'.localSecrets .handshake = .ok (secretsOf P k)) (hr : cr.remoteSecrets .handshake = .ok (secretsOf P k)) (hc : IdsOk cs)
    (fs : List Frame) (p : PacketHandshake) (hb : (PacketHandshake.new bp fs cs).1 = .ok p) (payload out : Bytes)
    (hpl : serializeFrames fs false = .ok payload) (hs : payload.length + 20 < 2 ^ 64)
    (hf : (deserializeFrames (makeResultStream payload)).1 = .ok fs) (ho : p.serialize cs' = .ok out) (s : Stream)
    (hlen : (makeResultStream out ++ s).length + 4 < 2 ^ 64) :
    decodeNextPacket bp' cr (makeResultStream out ++ s) = (.ok (.handshake p), s) ↔
      Arrives ((cs.pnInfo .handshake).largestLocalAck.map BitVec.toNat) ((cr.pnInfo .handshake).largestRemoteAck.map BitVec.toNat) p.packetNumber.toNat := by
  obtain ⟨hw, hp⟩ := built_handshake_wire hl hkl hc hb hpl hs ho
  obtain ⟨-, h2, -, h4, -, h7⟩ := (C126_handshake bp cs fs p).mp hb
  rw [← arrives_iff bp' _ _ _ _ ack_lt p.packetNumber.isLt h2 h4]
  constructor
  · intro e
    have := handshake_short hP hr hkl.2.1 hp hw e
    obtain ⟨out', hb, lb, plain, four, L, -, -, -, -, -, -, o, g, -⟩ := (C127_handshake P bp' cr k hkl hr _ _ p hlen).mp e
    have h5 : p.packetNumberBytes.length = 4 := by omega
    have : four = p.packetNumberBytes := by
      obtain ⟨_, _, _, m0, m1, m2, m3, m4, _, masked, _, _, _, l4, rfl, e2, _⟩ := o
      rw [e2, List.take_of_length_le]
      have := congrArg List.length e2
      rw [List.length_take, h5] at this
      rw [List.length_zipWith] at this ⊢
      simp only [List.length_cons, List.length_nil] at this ⊢
      omega
    exact ⟨h5, this ▸ g⟩
  · rintro ⟨h5, h6⟩
    have := decodeNext_handshake_reads hP hr hkl.2.1 hp hw h5 ((reconstruct_reads bp' cr .handshake h4 _).mpr h6) hf s
    rw [this, ← h7]

/-- Nothing recorded on either side: every packet arrives that can be built (also C31, C53).
Missing for the full statement: connections that have recorded numbers, for which it is false (`C129_after_acknowledgement`, `C129_after_receipt`). -/
theorem C129_nothing_recorded_partial (P : Prims) (hP : PrimLaws P) (bp bp' : Profile) (cs cs' cr : Connection) (k : Keys) (hkl : KeyLens k)
    (hl : cs'.localSecrets .initial = .ok (secretsOf P k)) (hr : cr.remoteSecrets .initial = .ok (secretsOf P k)) (hc : IdsOk cs)
    (hs0 : (cs.pnInfo .initial).largestLocalAck = none) (hr0 : (cr.pnInfo .initial).largestRemoteAck = none)
    (fs : List Frame) (token : Option Bytes) (p : PacketInitial) (hb : (PacketInitial.new bp fs token cs).1 = .ok p) (payload out : Bytes)
    (hpl : serializeFrames fs false = .ok payload) (hs : payload.length + 20 < 2 ^ 64) (ht : (token.getD []).length < 2 ^ 64)
    (hf : (deserializeFrames (makeResultStream payload)).1 = .ok fs) (ho : p.serialize cs' = .ok out) (s : Stream) :
    decodeNextPacket bp' cr (makeResultStream out ++ s) = (.ok (.initial p), s) := by
  rw [C129_initial_exact P hP bp bp' cs cs' cr k hkl hl hr hc fs token p hb payload out hpl hs ht hf ho s, hs0, hr0]
  have h2 := ((C126_initial bp cs fs token p).mp hb).2.1
  rw [hs0] at h2
  exact ⟨nofun, h2.1⟩

/-- C129 fails on the side of the sender: once the number `a` is recorded as acknowledged, none of the next 2^24 packets arrives: whatever the receiver has
recorded, and whatever it delivers, decoding does not stop at the end of the packet. -/
theorem C129_after_acknowledgement (P : Prims) (hP : PrimLaws P) (bp bp' : Profile) (cs cs' cr : Connection) (k : Keys) (hkl : KeyLens k)
    (hl : cs'.localSecrets .initial = .ok (secretsOf P k)) (hr : cr.remoteSecrets .initial = .ok (secretsOf P k)) (hc : IdsOk cs)
    (a : U64) (ha : (cs.pnInfo .initial).largestLocalAck = some a)
    (fs : List Frame) (token : Option Bytes) (p : PacketInitial) (hb : (PacketInitial.new bp fs token cs).1 = .ok p)
    (hn : p.packetNumber.toNat < a.toNat + 2 ^ 24) (payload out : Bytes)
    (hpl : serializeFrames fs false = .ok payload) (hs : payload.length + 20 < 2 ^ 64) (ht : (token.getD []).length < 2 ^ 64)
    (ho : p.serialize cs' = .ok out) (s : Stream) (q : Packet) :
    decodeNextPacket bp' cr (makeResultStream out ++ s) ≠ (.ok q, s) := by
  intro e
  obtain ⟨hw, hp⟩ := built_initial_wire hl hkl hc hb hpl hs ht ho
  obtain ⟨-, h2, -, h4, -⟩ := (C126_initial bp cs fs token p).mp hb
  have := initial_short hP hr hkl.2.1 hp hw e
  have h5 : p.packetNumberBytes.length = 4 := by omega
  rw [ha] at h2
  obtain ⟨-, -, h3, -⟩ := h2
  rw [h5] at h3
  have : (256 : Nat) ^ (4 - 1) = 2 ^ 24 := by decide
  omega

/-- C129 fails on the side of the receiver: once the number `x` is recorded as received, the packet with the next number does not arrive, whatever the sender has
recorded, for all but 32 of every 2^32 numbers. -/
theorem C129_next_number {x : Nat} (h1 : 16 ≤ x % 2 ^ 32) (h2 : x % 2 ^ 32 + 16 < 2 ^ 32) (a : Option Nat) : ¬ Arrives a (some x) (x + 1) := by
  rintro ⟨-, h⟩
  have h' : 16 * (x / 16 + if x / 2 ^ 32 < (x + 1) % 2 ^ 32 then 0 else 1) % 2 ^ 64 = x + 1 - (x + 1) % 2 ^ 32 := h
  split at h' <;> omega
theorem C129_after_receipt (P : Prims) (hP : PrimLaws P) (bp bp' : Profile) (cs cs' cr : Connection) (k : Keys) (hkl : KeyLens k)
    (hl : cs'.localSecrets .initial = .ok (secretsOf P k)) (hr : cr.remoteSecrets .initial = .ok (secretsOf P k)) (hc : IdsOk cs)
    (x : U64) (hx : (cr.pnInfo .initial).largestRemoteAck = some x) (h1 : 16 ≤ x.toNat % 2 ^ 32) (h2 : x.toNat % 2 ^ 32 + 16 < 2 ^ 32)
    (fs : List Frame) (token : Option Bytes) (p : PacketInitial) (hb : (PacketInitial.new bp fs token cs).1 = .ok p)
    (hn : p.packetNumber.toNat = x.toNat + 1) (payload out : Bytes)
    (hpl : serializeFrames fs false = .ok payload) (hs : payload.length + 20 < 2 ^ 64) (ht : (token.getD []).length < 2 ^ 64)
    (hf : (deserializeFrames (makeResultStream payload)).1 = .ok fs) (ho : p.serialize cs' = .ok out) (s : Stream) :
    decodeNextPacket bp' cr (makeResultStream out ++ s) ≠ (.ok (.initial p), s) := by
  intro e
  rw [C129_initial_exact P hP bp bp' cs cs' cr k hkl hl hr hc fs token p hb payload out hpl hs ht hf ho s, hx, hn] at e
  exact C129_next_number h1 h2 _ e

/-- **C129**: what should hold. The sender knows that `a` was acknowledged, the receiver has received everything up to `x`, and the sender sends the next packet:
it is delivered. -/
def C129For (P : Prims) : Prop :=
  ∀ (bp bp' : Profile) (cs cr : Connection) (k : Keys) (_ : KeyLens k) (_ : cs.localSecrets .initial = .ok (secretsOf P k))
    (_ : cr.remoteSecrets .initial = .ok (secretsOf P k)) (_ : IdsOk cs) (a x : U64) (_ : (cs.pnInfo .initial).largestLocalAck = some a)
    (_ : (cr.pnInfo .initial).largestRemoteAck = some x) (_ : a.toNat ≤ x.toNat) (_ : (cs.pnInfo .initial).nextPn = x)
    (fs : List Frame) (_ : ∀ f ∈ fs, WellFormed f) (_ : ∀ f ∈ fs, Plain f) (p : PacketInitial) (_ : (PacketInitial.new bp fs none cs).1 = .ok p)
    (out : Bytes) (_ : p.serialize cs = .ok out) (s : Stream),
    decodeNextPacket bp' cr (makeResultStream out ++ s) = (.ok (.initial p), s)
def C129Statement : Prop := ∀ P, PrimLaws P → C129For P

/-- A connection with any keys, with which both sides have recorded the number `a`, and `a` is also the number last sent. -/
def lateKeys : Keys := ⟨List.replicate 16 1, List.replicate 12 2, List.replicate 16 3⟩
def lateConn (P : Prims) (a : U64) : Connection :=
  { version := .v1, dcid := (⟨0, 5⟩, 8), scid := some (⟨0, 6⟩, 8), handshakePnInfo := PnInfo.new, applicationPnInfo := PnInfo.new,
    initialPnInfo := { largestRemoteAck := some a, largestLocalAck := some a, nextPn := a, localTlsSecrets := some (secretsOf P lateKeys),
                       remoteTlsSecrets := some (secretsOf P lateKeys) } }
theorem lateConn_ids (P : Prims) (a : U64) : IdsOk (lateConn P a) :=
  ⟨by show 8 ≤ 20; decide, by show cidVal ⟨0, 5⟩ < 256 ^ 8; decide +kernel, fun x hx => by cases hx; show 8 ≤ 20; decide,
    fun x hx => by cases hx; show cidVal ⟨0, 6⟩ < 256 ^ 8; decide +kernel⟩

theorem C129_false_any (P : Prims) (hP : PrimLaws P) : ¬ C129For P := by
  intro h
  have hlens : KeyLens lateKeys := ⟨rfl, rfl, rfl⟩
  have hok := (C126_outcomes .debug (lateConn P 0) [.ping, .ping, .ping] none).2.2.1.mpr
    ⟨fun g => absurd g.2 (by show ¬ (0 + 1 = 2 ^ 64); decide), nofun, by show 0 < (0 + 1) % 2 ^ 64 ∧ (0 + 1) % 2 ^ 64 < 0 + 2 ^ 32; decide⟩
  cases hb : (PacketInitial.new .debug [.ping, .ping, .ping] none (lateConn P 0)).1 with
  | err e => rw [hb] at hok; cases hok
  | panic w => rw [hb] at hok; cases hok
  | ok p =>
    obtain ⟨g1, g2, g3, g4, ⟨sc, sl, g5, g6⟩, g7, g8⟩ := (C126_initial .debug (lateConn P 0) _ none p).mp hb
    have hpl : serializeFrames p.packetPayload false = .ok [1, 1, 1] := by rw [g8]; decide
    have hn : p.packetNumber.toNat = 1 := g1.1
    have hann : announced p.header = p.packetNumberBytes.length := by unfold announced; rw [g6.first]; omega
    cases g5
    have hk := C128_initial_ends P hP (lateConn P 0) lateKeys hlens rfl p [1, 1, 1] hpl (by decide) (by rw [g7]; decide) (by omega)
    have e1 : p.header.destinationConnectionIdLength.toNat = 8 := g6.dcidLen
    have e2 : p.header.sourceConnectionIdLength.toNat = 8 := g6.scidLen
    have hw : writeKind true p.header p.packetNumberBytes.length 3 = .ok := by
      unfold writeKind
      rw [g6.plain.2, e1, e2, hann]
      simp only [Bool.false_eq_true, Bool.not_true, if_false]
      rw [if_neg (by decide), if_neg (by omega), if_neg (by omega)]
    have hk' : kindOf (p.serialize (lateConn P 0)) = .ok := hk.trans hw
    cases ho : p.serialize (lateConn P 0) with
    | err e => rw [ho] at hk'; cases hk'
    | panic w => rw [ho] at hk'; cases hk'
    | ok out =>
      have hd := h .debug .debug (lateConn P 0) (lateConn P 0) lateKeys hlens rfl rfl (lateConn_ids P 0) 0 0 rfl rfl (Nat.le_refl _) rfl
        [.ping, .ping, .ping] (by decide) (by intro f hf; simp only [List.mem_cons, List.not_mem_nil, or_false, or_self] at hf; subst hf; trivial) p hb out ho []
      exact C129_after_acknowledgement P hP .debug .debug (lateConn P 0) (lateConn P 0) (lateConn P 0) lateKeys hlens rfl rfl (lateConn_ids P 0) 0 rfl
        [.ping, .ping, .ping] none p hb (by rw [hn]; decide) [1, 1, 1] out (by rw [← g8]; exact hpl) (by decide) (by decide) ho [] _ hd

theorem C129_false : ¬ C129Statement := fun h => C129_false_any toy toy_laws (h toy toy_laws)

/-- Instances. With nothing recorded by the sender (four bytes) and 3 recorded by the receiver the packet 4 arrives, with 20 recorded packet 21 does not; a distance of
2^24 takes four bytes, and arrives if nothing is recorded by the receiver. -/
example : Arrives none (some 3) 4 ∧ ¬ Arrives none (some 20) 21 ∧ Arrives (some 5) none (2 ^ 24 + 5) ∧ ¬ Arrives (some 5) none 6 := by
  refine ⟨⟨nofun, by decide⟩, fun h => absurd h.2 (by decide), ⟨fun a h => ?_, by show 2 ^ 24 + 5 < 2 ^ 32; decide⟩, fun h => absurd (h.1 5 rfl) (by decide)⟩
  cases h; decide
example : (match (PacketInitial.new .debug [.ping, .ping, .ping] none (lateConn toy 20)).1 with
    | .ok p => (match p.serialize (lateConn toy 20) with
      | .ok out => p.packetNumberBytes.length == 1 && (decodeNextPacket .debug (lateConn toy 20) (makeResultStream out)).1.isErr
      | _ => false)
    | _ => false) = true := by decide +kernel

end QuicSea
