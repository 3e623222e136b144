import Verif.Proofs.AppData
import Verif.Props.Decode
/-
C72, C74: 0-RTT and 1-RTT packets once keys are installed (no code of the crate installs them yet).
-/
namespace QuicSea
open Spec

/-! ## C72 -/

/-- C72, full statement: a receiver with matching application keys and no acknowledgement recorded decodes every RFC 9000 0-RTT packet. -/
def C72For (P : Prims) : Prop :=
  ∀ (bp : Profile) (c : Connection) (k : Keys) (_ : KeyLens k) (_ : c.remoteSecrets .application = .ok (secretsOf P k))
    (_ : (c.pnInfo .application).largestRemoteAck = none) (h : LongPacketHeader) (_ : h.isProtected = false) (pnB payload out : Bytes) (pn : U64)
    (fs : List Frame) (_ : ZeroRttWire P k h pnB pn.toNat payload out) (_ : beNat pnB = pn.toNat)
    (_ : (deserializeFrames (makeResultStream payload)).1 = .ok fs) (s : Stream),
    ∃ p, decodeNextPacket bp c (makeResultStream out ++ s) = (.ok (.zeroRtt p), s) ∧ p.header = h ∧ p.packetNumber = pn ∧
      p.packetNumberBytes = pnB ∧ p.packetPayload = fs ∧ p.length.toNat = pnB.length + payload.length + 16
/-- The claim, for all algorithms that obey the laws. -/
def C72Statement : Prop := ∀ P, PrimLaws P → C72For P

/-- C72 for four-byte packet numbers.
Missing for the full statement: shorter numbers, for which it is false (`C72_short_never_decoded`). -/
theorem C72_four_bytes_partial (P : Prims) (hP : PrimLaws P) (bp : Profile) (c : Connection) (k : Keys) (hkl : KeyLens k)
    (hk : c.remoteSecrets .application = .ok (secretsOf P k)) (ha : (c.pnInfo .application).largestRemoteAck = none) (h : LongPacketHeader)
    (hp : h.isProtected = false) (pnB payload out : Bytes) (pn : U64) (fs : List Frame) (hw : ZeroRttWire P k h pnB pn.toNat payload out)
    (h4 : pnB.length = 4) (hv : beNat pnB = pn.toNat) (hf : (deserializeFrames (makeResultStream payload)).1 = .ok fs) (s : Stream) :
    ∃ p, decodeNextPacket bp c (makeResultStream out ++ s) = (.ok (.zeroRtt p), s) ∧ p.header = h ∧ p.packetNumber = pn ∧
      p.packetNumberBytes = pnB ∧ p.packetPayload = fs ∧ p.length.toNat = pnB.length + payload.length + 16 := by
  refine ⟨_, decodeNext_zeroRtt_reads hP hk hkl.2.1 hp hw h4 (reconstruct_four (by omega) hv ha) hf s, rfl, rfl, rfl, rfl, ?_⟩
  obtain ⟨_, _, _, _, _, w5, _⟩ := hw
  have := w5.lt
  exact ofNat64_toNat (by omega)
/-- C72 fails for every shorter packet number: decoding never stops at the end of the packet, whatever it delivers. -/
theorem C72_short_never_decoded (P : Prims) (hP : PrimLaws P) (bp : Profile) (c : Connection) (k : Keys) (hkl : KeyLens k)
    (hk : c.remoteSecrets .application = .ok (secretsOf P k)) (h : LongPacketHeader)
    (hp : h.isProtected = false) (pnB payload out : Bytes) (pn : U64) (hw : ZeroRttWire P k h pnB pn.toNat payload out)
    (h4 : pnB.length < 4) (s : Stream) (q : Packet) : decodeNextPacket bp c (makeResultStream out ++ s) ≠ (.ok q, s) := by
  intro e
  have := zeroRtt_short hP hk hkl.2.1 hp hw e
  omega
/-- C72, exactly: an RFC 0-RTT packet is decoded to itself precisely when its packet number takes four bytes. -/
theorem C72_exact (P : Prims) (hP : PrimLaws P) (bp : Profile) (c : Connection) (k : Keys) (hkl : KeyLens k)
    (hk : c.remoteSecrets .application = .ok (secretsOf P k)) (ha : (c.pnInfo .application).largestRemoteAck = none) (h : LongPacketHeader)
    (hp : h.isProtected = false) (pnB payload out : Bytes) (pn : U64) (fs : List Frame) (hw : ZeroRttWire P k h pnB pn.toNat payload out)
    (hv : beNat pnB = pn.toNat) (hf : (deserializeFrames (makeResultStream payload)).1 = .ok fs) (s : Stream) :
    (∃ p, decodeNextPacket bp c (makeResultStream out ++ s) = (.ok (.zeroRtt p), s) ∧ p.header = h ∧ p.packetNumber = pn ∧
      p.packetNumberBytes = pnB ∧ p.packetPayload = fs ∧ p.length.toNat = pnB.length + payload.length + 16) ↔ pnB.length = 4 := by
  refine ⟨fun ⟨_, e, _⟩ => ?_, fun h4 => C72_four_bytes_partial P hP bp c k hkl hk ha h hp pnB payload out pn fs hw h4 hv hf s⟩
  have := zeroRtt_short hP hk hkl.2.1 hp hw e
  obtain ⟨_, _, _, _, w, _⟩ := hw
  omega

/-- A connection of the toy instance with application keys, and RFC packets for it. -/
def exAppConn : Connection :=
  { (exClient.run .debug exOps).2 with applicationPnInfo := { PnInfo.new with remoteTlsSecrets := some (secretsOf Spec.toy exKeys) } }
def exAppCt (first : U8) (mid pnB : Bytes) : Bytes × Bytes :=
  (Spec.toy.gcmSeal exKeys.key (rfcNonce exKeys.iv [0, 0, 0, 0, 0, 0, 0, 1]) ([first] ++ mid ++ pnB) exPayload).getD ([], [])
def exAppMask (first : U8) (mid pnB : Bytes) : Bytes :=
  (Spec.toy.aesEcb exKeys.hp (((pnB ++ (exAppCt first mid pnB).1 ++ (exAppCt first mid pnB).2).drop 4).take 16)).getD []
def exAppOut (bits first : U8) (mid pnB : Bytes) : Bytes :=
  [first ^^^ ((exAppMask first mid pnB)[0]! &&& bits)] ++ mid ++
    pnB.zipWith (· ^^^ ·) [(exAppMask first mid pnB)[1]!, (exAppMask first mid pnB)[2]!, (exAppMask first mid pnB)[3]!, (exAppMask first mid pnB)[4]!] ++
    (exAppCt first mid pnB).1 ++ (exAppCt first mid pnB).2
theorem exApp_protected (bits first : U8) (mid pnB : Bytes)
    (h1 : Spec.toy.gcmSeal exKeys.key (rfcNonce exKeys.iv [0, 0, 0, 0, 0, 0, 0, 1]) ([first] ++ mid ++ pnB) exPayload =
      some ((exAppCt first mid pnB).1, (exAppCt first mid pnB).2))
    (h2 : 20 ≤ (pnB ++ (exAppCt first mid pnB).1 ++ (exAppCt first mid pnB).2).length)
    (h3 : Spec.toy.aesEcb exKeys.hp (((pnB ++ (exAppCt first mid pnB).1 ++ (exAppCt first mid pnB).2).drop 4).take 16) =
      some ((exAppMask first mid pnB)[0]! :: (exAppMask first mid pnB)[1]! :: (exAppMask first mid pnB)[2]! :: (exAppMask first mid pnB)[3]! ::
        (exAppMask first mid pnB)[4]! :: (exAppMask first mid pnB).drop 5)) :
    Protected Spec.toy exKeys bits first mid pnB 1 exPayload (exAppOut bits first mid pnB) :=
  ⟨[0, 0, 0, 0, 0, 0, 0, 1], _, _, _, _, _, _, _, _, rfl, by decide, h1, h2, h3, rfl⟩

def exZeroHeader (n : Nat) : LongPacketHeader := ⟨BitVec.ofNat 8 (0xd0 + (n - 1)), 1, 8, ⟨0, 0x0102030405060708⟩, 2, ⟨0, 0x1122⟩, none, false⟩
def exZeroMid (n : Nat) : Bytes := [0, 0, 0, 1, 8, 1, 2, 3, 4, 5, 6, 7, 8, 2, 0x11, 0x22, BitVec.ofNat 8 (n + 37)]
def exZeroOut (n : Nat) : Bytes := exAppOut 0x0f (exZeroHeader n).headerByte (exZeroMid n) (exPn n)
theorem exZeroOut_wire (n : Nat) (hn : n = 2 ∨ n = 4) : ZeroRttWire Spec.toy exKeys (exZeroHeader n) (exPn n) 1 exPayload (exZeroOut n) := by
  refine ⟨(exZeroMid n).take 16, [BitVec.ofNat 8 (n + 37)], ?_, ?_, ?_, ?_, ?_⟩
  · refine ⟨[0, 0, 0, 1], [1, 2, 3, 4, 5, 6, 7, 8], [0x11, 0x22], ?_⟩
    rcases hn with rfl | rfl <;> decide +kernel
  · rcases hn with rfl | rfl <;> decide +kernel
  · rcases hn with rfl | rfl <;> decide +kernel
  · refine ⟨0, ?_⟩
    rcases hn with rfl | rfl <;> decide +kernel
  · refine exApp_protected 0x0f _ (exZeroMid n) (exPn n) ?_ ?_ ?_ <;> rcases hn with rfl | rfl <;> decide +kernel
theorem C72_false : ¬ C72Statement := by
  intro h
  obtain ⟨p, e, -⟩ := h Spec.toy Spec.toy_laws .debug exAppConn exKeys exKeys_lens rfl rfl (exZeroHeader 2) rfl (exPn 2) exPayload (exZeroOut 2) 1
    (.ping :: List.replicate 20 .padding) (exZeroOut_wire 2 (by decide)) (by decide +kernel) (by decide +kernel) []
  exact C72_short_never_decoded Spec.toy Spec.toy_laws .debug exAppConn exKeys exKeys_lens rfl (exZeroHeader 2) rfl (exPn 2) exPayload (exZeroOut 2) 1
    (exZeroOut_wire 2 (by decide)) (by decide +kernel) [] _ e
/-- Non-trivial instances, computed: the four lengths. -/
example : [1, 2, 3, 4].map (fun n => (decodeNextPacket .release exAppConn (makeResultStream (exZeroOut n))).1.isOk) = [false, false, false, true] := by decide +kernel

/-! ## C74 -/

/-- C74, full statement: a receiver with matching application keys and no acknowledgement recorded decodes every RFC 9000 1-RTT packet that stands
last in its datagram and is addressed to an id of eight bytes. -/
def C74For (P : Prims) : Prop :=
  ∀ (bp : Profile) (c : Connection) (k : Keys) (_ : KeyLens k) (_ : c.remoteSecrets .application = .ok (secretsOf P k))
    (_ : (c.pnInfo .application).largestRemoteAck = none) (h : ShortPacketHeader) (_ : h.isProtected = false) (pnB payload out : Bytes) (pn : U64)
    (fs : List Frame) (_ : OneRttWire P k h pnB pn.toNat payload out) (_ : beNat pnB = pn.toNat)
    (_ : (deserializeFrames (makeResultStream payload)).1 = .ok fs),
    decodeNextPacket bp c (makeResultStream out) =
      (.ok (.oneRtt { header := h, packetNumberBytes := pnB, packetNumber := pn, packetPayload := fs }), [])
/-- The claim, for all algorithms that obey the laws. -/
def C74Statement : Prop := ∀ P, PrimLaws P → C74For P

/-- C74 for four-byte packet numbers.
Missing for the full statement: shorter numbers, for which it is false (`C74_short_cut_off`). -/
theorem C74_four_bytes_partial (P : Prims) (hP : PrimLaws P) (bp : Profile) (c : Connection) (k : Keys) (hkl : KeyLens k)
    (hk : c.remoteSecrets .application = .ok (secretsOf P k)) (ha : (c.pnInfo .application).largestRemoteAck = none) (h : ShortPacketHeader)
    (hp : h.isProtected = false) (pnB payload out : Bytes) (pn : U64) (fs : List Frame) (hw : OneRttWire P k h pnB pn.toNat payload out)
    (h4 : pnB.length = 4) (hv : beNat pnB = pn.toNat) (hf : (deserializeFrames (makeResultStream payload)).1 = .ok fs) :
    decodeNextPacket bp c (makeResultStream out) =
      (.ok (.oneRtt { header := h, packetNumberBytes := pnB, packetNumber := pn, packetPayload := fs }), []) :=
  oneRtt_four hP hk hkl.2.1 hp hw h4 (reconstruct_four (by omega) hv ha) hf
/-- C74 fails for every shorter packet number: the code takes the first bytes of the ciphertext for packet number and opens the rest. So it delivers
something only if the AEAD accepts a ciphertext with its start cut off, under the tag of the whole. -/
theorem C74_short_cut_off (P : Prims) (hP : PrimLaws P) (bp : Profile) (c : Connection) (k : Keys) (hkl : KeyLens k)
    (hk : c.remoteSecrets .application = .ok (secretsOf P k)) (ha : (c.pnInfo .application).largestRemoteAck = none) (h : ShortPacketHeader)
    (hp : h.isProtected = false) (pnB payload out : Bytes) (pn : U64) (hw : OneRttWire P k h pnB pn.toNat payload out)
    (_ : pnB.length < 4) (hv : beNat pnB = pn.toNat) (s' : Stream) (q : Packet) (hd : decodeNextPacket bp c (makeResultStream out) = (.ok q, s')) :
    ∃ hb nb ct tag plain, ShortFields h (h.headerByte :: hb) ∧ nb.length = 8 ∧ beNat nb = pn.toNat ∧
      P.gcmSeal k.key (rfcNonce k.iv nb) (h.headerByte :: (hb ++ pnB)) payload = some (ct, tag) ∧
      P.gcmOpen k.key (rfcNonce k.iv nb) (h.headerByte :: (hb ++ pnB)) (ct.drop (4 - pnB.length)) tag = some plain :=
  oneRtt_short hP hk hkl.2.1 ha hp hw hv hd
/-- A 1-RTT packet takes the whole rest of the datagram: what is delivered leaves nothing. -/
theorem C74_takes_the_rest (P : Prims) (bp : Profile) (c : Connection) (k : Keys) (hkl : KeyLens k)
    (hk : c.remoteSecrets .application = .ok (secretsOf P k)) (s s' : Stream) (p : PacketOneRtt)
    (hd : decodeNextPacket bp c s = (.ok (.oneRtt p), s')) : s' = [] ∧ p.header.isProtected = false := by
  obtain ⟨_, _, _, _, _, h, _, h2, _⟩ := oneRtt_opened hk hkl.2.1 hd
  exact ⟨h, h2⟩

def exOneHeader (n : Nat) : ShortPacketHeader := ⟨BitVec.ofNat 8 (0x60 + (n - 1)), ⟨0, 0x0102030405060708⟩, false⟩
def exOneOut (n : Nat) : Bytes := exAppOut 0x1f (exOneHeader n).headerByte [1, 2, 3, 4, 5, 6, 7, 8] (exPn n)
theorem exOneOut_wire (n : Nat) (hn : n = 2 ∨ n = 4) : OneRttWire Spec.toy exKeys (exOneHeader n) (exPn n) 1 exPayload (exOneOut n) := by
  refine ⟨[1, 2, 3, 4, 5, 6, 7, 8], ⟨[1, 2, 3, 4, 5, 6, 7, 8], rfl, rfl, by show beNat _ = cidVal ⟨0, 0x0102030405060708⟩; decide +kernel⟩, ?_, ?_, ?_⟩
  · rcases hn with rfl | rfl <;> decide +kernel
  · rcases hn with rfl | rfl <;> decide +kernel
  · refine exApp_protected 0x1f _ [1, 2, 3, 4, 5, 6, 7, 8] (exPn n) ?_ ?_ ?_ <;> rcases hn with rfl | rfl <;> decide +kernel
theorem C74_false : ¬ C74Statement := by
  intro h
  have e := h Spec.toy Spec.toy_laws .debug exAppConn exKeys exKeys_lens rfl rfl (exOneHeader 2) rfl (exPn 2) exPayload (exOneOut 2) 1
    (.ping :: List.replicate 20 .padding) (exOneOut_wire 2 (by decide)) (by decide +kernel) (by decide +kernel)
  have h2 : (decodeNextPacket .debug exAppConn (makeResultStream (exOneOut 2))).1.isOk = false := by decide +kernel
  rw [e] at h2
  cases h2
/-- Non-trivial instances, computed: the four lengths. -/
example : [1, 2, 3, 4].map (fun n => (decodeNextPacket .release exAppConn (makeResultStream (exOneOut n))).1.isOk) = [false, false, false, true] := by decide +kernel

end QuicSea
