import Verif.Props.Keyed
import Verif.Props.AuthenticAll
import Verif.Props.Codes
import Verif.Props.Env
import Verif.Props.Profile
import Verif.Props.Identity
import Verif.Props.Serial
import Verif.Props.Resources
import Verif.Props.Network
import Verif.Props.DebugKeys
import Verif.Props.ShortRules
import Verif.Props.Unique
import Verif.Props.Work
import Verif.Props.Atomic
import Verif.Props.TransportParameters
import Verif.Props.Tools
import Verif.Props.Malleable
import Verif.Props.Accepted
/-
Instances: theorems whose own file shows their hypotheses met by computing what they are about, applied here to concrete arguments.
-/
namespace QuicSea
open Spec

/-- What is computed to be a success is one. -/
theorem inst_ok {α} {x : Out α} (h : x.isOk = true) : ∃ a, x = .ok a := by
  cases x with
  | ok a => exact ⟨a, rfl⟩
  | err e => cases h
  | panic e => cases h
/-- The RFC packets of the examples of C32, C53, C72 and C74, decoded. -/
abbrev instFrames : List Frame := .ping :: List.replicate 20 .padding
theorem instInitial (s : Stream) : decodeNextPacket .debug exConn (makeResultStream (exOut 4) ++ s) = (.ok (.initial ⟨exHeader 4, [], 1, exPn 4, instFrames⟩), s) :=
  (C32_exact toy toy_laws .debug exConn exConn_reachable exKeys exKeys_ok (exHeader 4) rfl [] (exPn 4) exPayload (exOut 4) 1 instFrames (exOut_wire 4 (by decide))
    (by decide +kernel) (by decide +kernel) s).mpr rfl
theorem instHandshake (s : Stream) : decodeNextPacket .debug exHsConn (makeResultStream (exHsOut 4) ++ s) = (.ok (.handshake ⟨exHsHeader 4, exPn 4, 1, instFrames⟩), s) :=
  (C53_wire_exact toy toy_laws .debug exHsConn exKeys exKeys_lens rfl rfl (exHsHeader 4) rfl (exPn 4) exPayload (exHsOut 4) 1 instFrames (exHsOut_wire 4 (by decide))
    (by decide +kernel) (by decide +kernel) s).mpr rfl
theorem instZeroRtt (s : Stream) : ∃ p, decodeNextPacket .debug exAppConn (makeResultStream (exZeroOut 4) ++ s) = (.ok (.zeroRtt p), s) ∧ p.header = exZeroHeader 4 :=
  (C72_four_bytes_partial toy toy_laws .debug exAppConn exKeys exKeys_lens rfl rfl (exZeroHeader 4) rfl (exPn 4) exPayload (exZeroOut 4) 1
    instFrames (exZeroOut_wire 4 (by decide)) rfl (by decide +kernel) (by decide +kernel) s).imp fun _ h => ⟨h.1, h.2.1⟩

/-! ## Decoding (C32, C33, C35, C53, C72) -/

example : (decodeNextPacket .debug exConn (makeResultStream (exOut 2))).1.isErr = true :=
  C32_short_rejected toy toy_laws .debug exConn exConn_reachable exKeys exKeys_ok (exHeader 2) rfl [] (exPn 2) exPayload (exOut 2) 1 (exOut_wire 2 (by decide))
    (by decide)
example : ∃ cid k, cid.length = 8 ∧ beNat cid = 0x0102030405060708 ∧ InitialKeys toy false cid k := by
  obtain ⟨cid, k, h1, h2, h3, _⟩ := C33_initial toy toy_laws .debug .debug true .v1 _ 8 exConn exConn_new [] _ _ _ (instInitial [])
  exact ⟨cid, k, h1, h2.trans (by decide +kernel), h3⟩
/-- A Retry panics; two Initial packets do not. -/
example : (decodeNextPacket .debug exConn (makeResultStream [0xf0, 0, 0, 0, 1, 0, 0, 9])).1.isPanic = true :=
  (C35_exact_panic_partial toy toy_laws .debug .debug exConn exConn_reachable exKeys exKeys_ok _).mpr
    (.inr (.inl ⟨⟨0xf0, 1, 0, ⟨0, 0⟩, 0, ⟨0, 0⟩, none, true⟩, makeResultStream [9],
      ⟨[0xf0, 0, 0, 0, 1, 0, 0], by decide +kernel, ⟨[0, 0, 0, 1], [], [], by decide +kernel⟩, by decide +kernel⟩, by decide +kernel⟩))
example (s : Stream) : s.length < (makeResultStream (exOut 4) ++ s).length := ((C35_terminates .debug exConn _).1 _ _ (instInitial s)).2
/-- A Handshake packet built and serialized by one side and decoded by the other. -/
example : ∃ p out, (PacketHandshake.new .debug [.crypto ⟨0, 2, [5, 6]⟩] exHsConn).1 = .ok p ∧ p.serialize exHsConn = .ok out ∧
    ∀ s, decodeNextPacket .release exHsConn (makeResultStream out ++ s) = (.ok (.handshake p), s) := by
  obtain ⟨p, e⟩ := inst_ok (x := (PacketHandshake.new .debug [.crypto ⟨0, 2, [5, 6]⟩] exHsConn).1) (by decide +kernel)
  have : (serializeFrames [.crypto ⟨0, 2, [5, 6]⟩] false) = .ok [6, 0, 2, 5, 6] := by decide +kernel
  obtain ⟨_, out, h1, h2⟩ := C53_round_trip_partial toy toy_laws .debug .release exHsConn exHsConn exHsConn exKeys exKeys_lens rfl rfl rfl rfl
    (by decide +kernel) exScid [.crypto ⟨0, 2, [5, 6]⟩] (by decide +kernel) (fun f hf => by cases List.mem_singleton.mp hf; rfl)
    (fun bs h => by rw [this] at h; cases h; decide) p e
  exact ⟨p, out, e, h1, h2⟩
example (s : Stream) : ¬ ∃ p, decodeNextPacket .debug exAppConn (makeResultStream (exZeroOut 2) ++ s) = (.ok (.zeroRtt p), s) ∧ p.header = exZeroHeader 2 ∧
    p.packetNumber = 1 ∧ p.packetNumberBytes = exPn 2 ∧ p.packetPayload = instFrames ∧ p.length.toNat = (exPn 2).length + exPayload.length + 16 := fun h =>
  absurd ((C72_exact toy toy_laws .debug exAppConn exKeys exKeys_lens rfl rfl (exZeroHeader 2) rfl (exPn 2) exPayload (exZeroOut 2) 1
    _ (exZeroOut_wire 2 (by decide)) (by decide +kernel) (by decide +kernel) s).mp h) (by decide)

/-! ## Authentication (C33, C104) -/

/-- The four packets with the last bit of the tag flipped. -/
def instFlip (b : Bytes) : Bytes := b.take 15 ++ [b[15]! ^^^ 1]
example (s : Stream) : (decodeNextPacket .debug exHsConn (makeResultStream ([(exHsHeader 4).headerByte ^^^ ((exHsMask 4)[0]! &&& 0x0f)] ++ (exHsMid 4).take 16 ++ [41] ++
    (exPn 4).zipWith (· ^^^ ·) ((exHsMask 4).tail.take 4) ++ (exHsCt 4).1 ++ instFlip (exHsCt 4).2) ++ s)).1.isErr = true :=
  C33_rejected_handshake toy .debug exHsConn exKeys exKeys_lens rfl rfl (exHsHeader 4) ((exHsMid 4).take 16) [41] _ (exHsCt 4).1 (instFlip (exHsCt 4).2)
    ((exHsMask 4).drop 5) [0, 0, 0, 0, 0, 0, 0, 1] (exHsMask 4)[0]! (exHsMask 4)[1]! (exHsMask 4)[2]! (exHsMask 4)[3]! (exHsMask 4)[4]!
    ⟨[0, 0, 0, 1], [1, 2, 3, 4, 5, 6, 7, 8], [0x11, 0x22], by decide +kernel⟩ (by decide +kernel) ⟨0, by decide +kernel⟩ (by decide +kernel) (by decide +kernel)
    (by decide +kernel) (by decide +kernel) (by decide +kernel) s
abbrev instZC := exAppCt (exZeroHeader 4).headerByte (exZeroMid 4) (exPn 4)
abbrev instZM := exAppMask (exZeroHeader 4).headerByte (exZeroMid 4) (exPn 4)
example (s : Stream) : (decodeNextPacket .debug exAppConn (makeResultStream ([(exZeroHeader 4).headerByte ^^^ (instZM[0]! &&& 0x0f)] ++ (exZeroMid 4).take 16 ++ [41] ++
    (exPn 4).zipWith (· ^^^ ·) (instZM.tail.take 4) ++ instZC.1 ++ instFlip instZC.2) ++ s)).1.isErr = true :=
  C33_rejected_zero_rtt toy .debug exAppConn exKeys exKeys_lens rfl rfl (exZeroHeader 4) ((exZeroMid 4).take 16) [41] _ instZC.1 (instFlip instZC.2)
    (instZM.drop 5) [0, 0, 0, 0, 0, 0, 0, 1] instZM[0]! instZM[1]! instZM[2]! instZM[3]! instZM[4]!
    ⟨[0, 0, 0, 1], [1, 2, 3, 4, 5, 6, 7, 8], [0x11, 0x22], by decide +kernel⟩ (by decide +kernel) ⟨0, by decide +kernel⟩ (by decide +kernel) (by decide +kernel)
    (by decide +kernel) (by decide +kernel) (by decide +kernel) s
abbrev instOC := exAppCt (exOneHeader 4).headerByte [1, 2, 3, 4, 5, 6, 7, 8] (exPn 4)
abbrev instOM := exAppMask (exOneHeader 4).headerByte [1, 2, 3, 4, 5, 6, 7, 8] (exPn 4)
example : (decodeNextPacket .debug exAppConn (makeResultStream ([(exOneHeader 4).headerByte ^^^ (instOM[0]! &&& 0x1f)] ++ [1, 2, 3, 4, 5, 6, 7, 8] ++
    (exPn 4).zipWith (· ^^^ ·) (instOM.tail.take 4) ++ instOC.1 ++ instFlip instOC.2))).1.isErr = true :=
  C33_rejected_one_rtt toy .debug exAppConn exKeys exKeys_lens rfl rfl (exOneHeader 4) [1, 2, 3, 4, 5, 6, 7, 8] _ instOC.1 (instFlip instOC.2)
    (instOM.drop 5) [0, 0, 0, 0, 0, 0, 0, 1] instOM[0]! instOM[1]! instOM[2]! instOM[3]! instOM[4]!
    ⟨[1, 2, 3, 4, 5, 6, 7, 8], by decide +kernel⟩ (by decide +kernel) (by decide +kernel) (by decide +kernel)
    (by decide +kernel) (by decide +kernel) (by decide +kernel)

/-- The packets decoded above were sent by nobody: the toy AEAD, unlike a secure one, is forged by computing a tag. -/
example : ∃ out first mid pnB pn fs, makeResultStream (exHsOut 4) ++ [] = makeResultStream out ++ [] ∧
    Describes (.handshake ⟨exHsHeader 4, exPn 4, 1, instFrames⟩) first mid pnB pn fs ∧ Forgery toy exKeys (fun _ _ _ _ => False) first mid pnB pn out :=
  C104_nothing_sent toy_laws exKeys_lens.2.1 .debug exHsConn _ _ _ (instHandshake []) .handshake rfl rfl
example := C104_authentic toy_laws exKeys_lens.2.1 (fun _ => True) .debug exHsConn _ _ _ (instHandshake []) .handshake rfl rfl

example : ∃ before out after first mid pnB pn fs, exHsOut 4 = before ++ out ++ after ∧ Describes (.handshake ⟨exHsHeader 4, exPn 4, 1, instFrames⟩) first mid pnB pn fs ∧
    ((∃ x, (fun x : Sent => x = ⟨0xe3, exHsMid 4, exPn 4, 1, exPayload, exHsOut 4⟩) x ∧ x.first = first ∧ x.mid = mid ∧ x.pnBytes = pnB ∧ x.pn = pn ∧
        (deserializeFrames (makeResultStream x.payload)).1 = .ok fs ∧ (x.pnBytes.length = 4 → x.out = out)) ∨
      Forgery toy exKeys (CallsFor toy exKeys fun x => x = ⟨0xe3, exHsMid 4, exPn 4, 1, exPayload, exHsOut 4⟩) first mid pnB pn out) := by
  have e := instHandshake []
  have : decodePackets .debug exHsConn (makeResultStream (exHsOut 4)) = (.ok [.handshake ⟨exHsHeader 4, exPn 4, 1, instFrames⟩], []) := by decide +kernel
  exact C104_datagram toy_laws exKeys_lens.2.1 _ .debug exHsConn _ _ _ this _ (.head _) .handshake rfl rfl

/-- That packet is no forgery if it was sent: the second case does not occur. -/
example : ∃ x : Sent, x.out = exHsOut 4 ∧ x.pnBytes = exPn 4 ∧ ¬ Forgery toy exKeys (CallsFor toy exKeys (· = x)) x.first x.mid x.pnBytes x.pn x.out := by
  obtain ⟨mid, nonce, ad, ct, tag, h1, h2⟩ := handshakeWire_call (exHsOut_wire 4 (by decide))
  exact ⟨⟨_, mid, _, _, _, _⟩, rfl, rfl, C104_genuine toy_laws _ _ rfl h1 rfl nonce ad ct tag h2⟩

/-! ## Headers and packet numbers (C22, C28, C29) -/

example : ((⟨0xc3, 1, 8, ⟨0, 5⟩, 2, ⟨0, 9⟩, none, false⟩ : LongPacketHeader).addProtection ⟨0xff, 1, 2, 3, 4⟩).headerByte = 0xcc ∧
    ((⟨0xc3, 1, 8, ⟨0, 5⟩, 2, ⟨0, 9⟩, none, false⟩ : LongPacketHeader).addProtection ⟨0xff, 1, 2, 3, 4⟩).removeProtection ⟨0xff, 1, 2, 3, 4⟩ =
      ⟨0xc3, 1, 8, ⟨0, 5⟩, 2, ⟨0, 9⟩, none, false⟩ := ⟨by decide +kernel, (C22_long_reversible _ _).1 rfl⟩
example : ((⟨0x43, ⟨0, 5⟩, false⟩ : ShortPacketHeader).addProtection ⟨0xff, 1, 2, 3, 4⟩).headerByte = 0x5c ∧
    ((⟨0x43, ⟨0, 5⟩, false⟩ : ShortPacketHeader).addProtection ⟨0xff, 1, 2, 3, 4⟩).removeProtection ⟨0xff, 1, 2, 3, 4⟩ = ⟨0x43, ⟨0, 5⟩, false⟩ :=
  ⟨by decide +kernel, (C22_short_reversible _ _).1 rfl⟩
example : exConn.reconstructRemotePn .debug .initial [0, 1, 2, 3] = .ok 0x010203 :=
  C28_partial .debug exConn .initial 0x010203 [0, 1, 2, 3] (by decide +kernel) rfl
example : ∃ n b, ((exClient.run .debug exOps).2.getNextPn .debug .initial).1 = .ok (n, b) ∧ n = 3 ∧ exConn.reconstructRemotePn .debug .initial b = .ok n := by
  have e : ((exClient.run .debug exOps).2.getNextPn .debug .initial).1 = .ok (3, [0, 0, 0, 3]) := by decide +kernel
  exact ⟨_, _, e, rfl, C28_reachable_partial toy .debug _ exConn ⟨false, .v1, ⟨0, 0x0102030405060708⟩, 8, exClient, exOps, exClient_new, rfl⟩ exConn_reachable
    .initial 3 _ e⟩
example : ∃ b, truncatePn 0x1005c (some 0x10001) = .ok b ∧ enoughBits 0x1005c (some 0x10001) (8 * b.length) ∧ rfcDecodePn (some 0x10001) (beNat b) (8 * b.length) = 0x1005c :=
  C29_partial 0x1005c 0x10001 (by decide +kernel) (by decide +kernel) fun k => by
    have e : (0x1005c : U64).toNat - (0x10001 : U64).toNat = 91 := by decide +kernel
    have := Nat.pow_pos (a := 256) (n := k) (by decide)
    rw [e]
    omega

/-! ## Packets built by the code (C31, C37, C40, C114, C116) -/

example : ∃ p out, (PacketInitial.new .debug [.crypto ⟨1, 1, [5]⟩, .ping] (some [9, 9, 9]) (exClient.run .debug exOps).2).1 = .ok p ∧
    p.serialize (exClient.run .debug exOps).2 = .ok out ∧ (decodeNextPacket .debug exConn (makeResultStream out ++ [])).1.isOk = true := by
  obtain ⟨p, hp⟩ := C31_builds toy .debug false .v1 ⟨0, 0x0102030405060708⟩ 8 exClient exClient_new exOps (by decide) exScid [.crypto ⟨1, 1, [5]⟩, .ping] (some [9, 9, 9])
  have e1 : serializeFrames [.crypto ⟨1, 1, [5]⟩, .ping] false = .ok [6, 1, 1, 5, 1] := by decide +kernel
  obtain ⟨fs', e2⟩ := inst_ok (x := (deserializeFrames (makeResultStream [6, 1, 1, 5, 1])).1) (by decide +kernel)
  obtain ⟨_, _, out, h1, h2⟩ := C31_envelope toy toy_laws .debug .debug _ _ exPeers exScid [.crypto ⟨1, 1, [5]⟩, .ping] fs' (some [9, 9, 9]) _ e1 (by decide) (by decide)
    e2 p hp []
  exact ⟨p, out, hp, h1, by rw [h2]; rfl⟩
example : ∃ p out b, (PacketHandshake.new .debug [.crypto ⟨0, 2, [5, 6]⟩] exHsConn).1 = .ok p ∧ p.serialize exHsConn = .ok out ∧
    Delimited .handshake { p.header with headerByte := b } [] out := by
  have e : (PacketHandshake.new .debug [.crypto ⟨0, 2, [5, 6]⟩] exHsConn).1 =
    .ok ⟨⟨0xe3, 1, 8, ⟨0, 0x0102030405060708⟩, 2, ⟨0, 0x1122⟩, none, false⟩, [0, 0, 0, 1], 1, [.crypto ⟨0, 2, [5, 6]⟩]⟩ := by decide +kernel
  obtain ⟨out, h⟩ := inst_ok (x := PacketHandshake.serialize ⟨⟨0xe3, 1, 8, ⟨0, 0x0102030405060708⟩, 2, ⟨0, 0x1122⟩, none, false⟩, [0, 0, 0, 1], 1, [.crypto ⟨0, 2, [5, 6]⟩]⟩
    exHsConn) (by decide +kernel)
  have e1 : serializeFrames [.crypto ⟨0, 2, [5, 6]⟩] false = .ok [6, 0, 2, 5, 6] := by decide +kernel
  obtain ⟨b, hb⟩ := C37_handshake_length toy toy_laws exHsConn exKeys rfl exKeys_lens.2.1 _ (by unfold LongOk; decide +kernel) (by decide +kernel) (by decide +kernel)
    (fun bs hbs => by rw [e1] at hbs; cases hbs; decide) out h
  exact ⟨_, out, b, e, h, hb⟩
example : ∃ bs, (TransportParameter.maxIdleTimeout 30000).serialize = .ok bs ∧ ParamTLV (.maxIdleTimeout 30000) bs := by
  obtain ⟨bs, h⟩ := inst_ok (x := (TransportParameter.maxIdleTimeout 30000).serialize) (by decide +kernel)
  exact ⟨bs, h, C40_format (.maxIdleTimeout 30000) (show (0 : Nat) < 2 ^ 63 by decide) h⟩
example : ((TransportParameter.maxIdleTimeout (2 ^ 62)).serialize).isOk = false ∧ ∃ bs, (TransportParameter.originalDestinationConnectionId [1, 2, 3]).serialize = .ok bs :=
  ⟨by
    have := (C40_fails_exactly (.maxIdleTimeout (2 ^ 62)) (show (0 : Nat) < 2 ^ 63 by decide)).1
    cases hx : (TransportParameter.maxIdleTimeout (2 ^ 62)).serialize with
    | ok bs => exact absurd ((this.mp ⟨bs, hx⟩).1 _ rfl) (by decide +kernel)
    | err e => rfl
    | panic e => rfl,
   (C40_fails_exactly (.originalDestinationConnectionId [1, 2, 3]) (show (3 : Nat) < 2 ^ 63 by decide)).1.mpr ⟨fun _ h => (by cases h), show (3 : Nat) < 2 ^ 62 by decide⟩⟩
example : kindOf ((Frame.crypto ⟨0, 2, [5, 6]⟩).toBytes false) = .ok ∧ kindOf ((Frame.crypto ⟨2 ^ 62, 2, [5, 6]⟩).toBytes false) = .err :=
  ⟨(C114_frame _).trans (by decide +kernel), (C114_frame _).trans (by decide +kernel)⟩
example : kindOf (serializeFrames [.ping, .crypto ⟨2 ^ 62, 2, [5, 6]⟩, .padding] false) = .err := (C114_frames _).trans (by decide +kernel)
example : kindOf (sendInitial .debug (exClient.run .debug exOps).2 [.ping, .crypto ⟨2 ^ 62, 2, [5, 6]⟩] none) = .err := by
  refine (C114_initial_exact toy .debug _ toy_laws ⟨false, .v1, ⟨0, 0x0102030405060708⟩, 8, exClient, exOps, exClient_new, rfl⟩ _ none (fun bs h => ?_) (by decide)).trans
    (by decide +kernel)
  have : (serializeFrames [.ping, .crypto ⟨2 ^ 62, 2, [5, 6]⟩] false).isOk = false := by decide +kernel
  rw [h] at this
  cases this
example : (PacketInitial.new .debug [.ping] none exConn).2 = exConn.setPnInfo .initial { exConn.pnInfo .initial with nextPn := (exConn.pnInfo .initial).nextPn + 1 } := by
  rcases (C116_build_exact toy .debug exConn exConn_reachable [.ping] none).1 with ⟨h, -⟩ | ⟨-, h⟩
  · exact absurd h (by decide +kernel)
  · exact h

/-! ## Errors (C98, C99) -/

/-- A PING and then the frame type 0x4000 + 0x1f, and what follows. -/
example (rest : Bytes) : ∃ e, (deserializeFrames (makeResultStream ([1] ++ ([0x40, 0x1f] ++ rest)))).1 = .err e ∧ e.toErrorByte.toNat = Spec.INTERNAL_ERROR :=
  C98_unknown_type [.ping] [1] [0x40, 0x1f] rest 0x1f (.cons (f := .ping) (b := [1]) (bs := []) ⟨0x01, _, .ping, by decide, rfl⟩ .nil) (fun f hf => by cases List.mem_singleton.mp hf; trivial) ⟨1, by decide⟩ (by decide)
example : ∃ e : Error, (deserializeFrames (makeResultStream [1, 0x1f])).1 = .err e ∧ e.toErrorByte.toNat = Spec.INTERNAL_ERROR := by
  have hx : (deserializeFrames (makeResultStream [1, 0x1f])).1.isErr = true := by decide +kernel
  cases h : (deserializeFrames (makeResultStream [1, 0x1f])).1 with
  | err e => exact ⟨e, rfl, C98_always_internal _ e h⟩
  | ok a => rw [h] at hx; cases hx
  | panic a => rw [h] at hx; cases hx
example (stdout stderr : Bool) : decodePacketsP ⟨64, stdout, stderr⟩ .debug exConn (makeResultStream (exOut 4)) =
    (.ok [.initial ⟨exHeader 4, [], 1, exPn 4, instFrames⟩], [], []) :=
  C99_success_silent_partial toy toy_laws .debug exConn exConn_reachable stdout stderr _ _ (by decide +kernel) _ (by decide +kernel)
/-- A NEW_TOKEN frame that announces five bytes and has two. -/
example : deserializeFramesP ⟨64, false, true⟩ (makeResultStream [0x07, 5, 8, 9]) = (.panic "failed printing to stdout", [], []) :=
  C99_token_printed 5 [5] [8, 9] ⟨0, by decide⟩ (by decide) false true

/-! ## Sockets (C43, C51, C58, C60, C61, C78, C79, C81) -/

/-- A long header that ends within the destination id. -/
theorem instMalformed : Malformed [0xc3, 0, 0, 0, 1, 8, 5, 5] := by
  rintro ⟨kind, d, ⟨first, rest, h1, h2, h3, _⟩ | ⟨first, vb, dl, sl, s, rest, v, h1, h2, h3, h4, h5, _⟩⟩
  · cases List.cons.inj h1 |>.1
    exact absurd h2 (by decide)
  · match vb, h3 with
    | [a, b, c, e], _ =>
      simp at h1
      obtain ⟨_, _, _, _, _, rfl, h1⟩ := h1
      have := congrArg List.length h1
      simp at this
      have : d.length = 8 := h5
      omega
example (k : Sock) : ∃ e, k.routeDatagram ⟨[0xc3, 0, 0, 0, 1, 8, 5, 5], 1⟩ = (.err e, k) := C43_malformed k _ instMalformed
example : ∃ e, exTable.routeDatagram exVn = (.err e, exTable) := (C43_version_negotiation exTable exVn _ exVn_addressed).2 rfl
/-- A short header to 5 and an Initial to 6: connection 5 is not reached by both. -/
example (r1 r2 : Out Unit) (k1 k2 : Sock) (e1 : exTable.routeDatagram exShort = (r1, k1)) (e2 : exTable.routeDatagram ⟨exCross 6, 1⟩ = (r2, k2)) :
    k1.streams (.ofU64 5) = some (.fromConnection exRouteConn) ∨ k2.streams (.ofU64 5) = some (.fromConnection exRouteConn) :=
  C51_different_values_partial exTable k1 k2 exShort ⟨exCross 6, 1⟩ .oneRtt .initial _ _ _ _ exShort_addressed (exCross_addressed 6) (by decide) (by decide)
    (by decide) (by decide) exTable_five r1 r2 e1 e2
example : ∃ x, ((Sock.bind.accept toy [.datagram exOpening 1] [7]).2.1).streams (.ofU64 7) = some x ∧
    (∃ p, (PacketInitial.new .debug [.ping] none x.connection).1 = .ok p ∧ SentTo p.header [0, 0, 0, 0, 0, 0, 0, 5]) := by
  obtain ⟨x, p, h1, h2, -⟩ := exOpening_builds _ _ _ _ rfl
  exact ⟨x, h1, p, h2, (C58_sent_to_original toy toy_laws .debug Sock.bind _ exOpening 1 [] _ 1 _ _ 7 [] _ _ exOpening_opens (fun _ _ => rfl) (fun _ _ => rfl) rfl _ x rfl h1
    [] [.ping] none).1 p h2⟩
example : (Sock.bind.recvDatagram (.datagram exOpening 9)).1 = .ok ⟨exOpening, 9⟩ := C60_intact_partial _ _ _ (by decide)
example : (exTable.accept toy [.datagram [0xc3, 0, 0, 0, 1, 0] 1] [7]).2.1.streams = exTable.streams := C61_tiny_partial toy exTable _ [0xc3, 0, 0, 0, 1, 0] 1 _ [7] _ _ (by decide) rfl
/-- The Initial of `exOut 4`, as it is and as the bytes of a packet in version 2. -/
theorem instPayload : FramesWire instFrames exPayload := by
  have h1 : ∀ n, FramesWire (List.replicate n .padding) (List.replicate n 0) := by
    intro n
    induction n with
    | zero => exact .nil
    | succ n ih => exact .cons (f := .padding) (b := [0]) ⟨0x00, _, .padding, by decide, rfl⟩ ih
  exact .cons (f := .ping) (b := [1]) ⟨0x01, _, .ping, by decide, rfl⟩ (h1 20)
theorem instPlain : ∀ f ∈ instFrames, Plain f := by
  intro f hf
  rcases List.mem_cons.mp hf with rfl | hf
  · trivial
  · cases List.eq_of_mem_replicate hf
    trivial
example : decodePackets .debug exConn (makeResultStream (exOut 4 ++ exOut 4)) =
    (.ok [.initial ⟨exHeader 4, [], 1, exPn 4, instFrames⟩, .initial ⟨exHeader 4, [], 1, exPn 4, instFrames⟩], []) := by
  have h : SealedInitial.Ok toy exKeys ⟨exHeader 4, [], exPn 4, 1, exPayload, instFrames, exOut 4⟩ :=
    ⟨rfl, exOut_wire 4 (by decide), rfl, by decide +kernel, instPayload, instPlain⟩
  have := C79_any_ids_delivered toy toy_laws .debug exConn exConn_reachable exKeys exKeys_ok
    [⟨exHeader 4, [], exPn 4, 1, exPayload, instFrames, exOut 4⟩, ⟨exHeader 4, [], exPn 4, 1, exPayload, instFrames, exOut 4⟩]
    (fun x hx => by simp at hx; subst hx; exact h)
  simpa using this
example : ∃ out, out ≠ [] ∧ makeResultStream (exOut 4) ++ makeResultStream [1, 2] = makeResultStream out ++ makeResultStream [1, 2] ∧
    ∀ t, decodeNextPacket .debug exConn (makeResultStream out ++ t) = (.ok (.initial ⟨exHeader 4, [], 1, exPn 4, instFrames⟩), t) :=
  C81_own_bytes toy .debug exConn (reachable_keysOrNone toy_laws exConn_reachable) _ _ _ rfl (instInitial (makeResultStream [1, 2]))
/-- A packet in QUIC version 2. -/
def instV2 : LongPacketHeader := ⟨0xc3, 0x6b3343cf, 8, ⟨0, 0x0102030405060708⟩, 2, ⟨0, 0x1122⟩, none, false⟩
def instV2Mid : Bytes := [0x6b, 0x33, 0x43, 0xcf, 8, 1, 2, 3, 4, 5, 6, 7, 8, 2, 0x11, 0x22, 0, 41]
example : ∃ p, decodePackets .debug exConn (makeResultStream (exAppOut 0x0f 0xc3 instV2Mid (exPn 4))) = (.ok [.initial p], []) ∧ p.header.version = 0x6b3343cf ∧
    p.packetPayload = instFrames :=
  C78_any_version_delivered toy toy_laws .debug exConn exConn_reachable exKeys exKeys_ok instV2 rfl [] (exPn 4) exPayload _ 1 instFrames
    ⟨instV2Mid.take 16, [0], [41], ⟨[0x6b, 0x33, 0x43, 0xcf], [1, 2, 3, 4, 5, 6, 7, 8], [0x11, 0x22], by decide +kernel⟩, by decide +kernel, by decide +kernel,
      ⟨0, by decide⟩, ⟨0, by decide +kernel⟩,
      exApp_protected 0x0f 0xc3 instV2Mid (exPn 4) (by decide +kernel) (by decide +kernel) (by decide +kernel)⟩ rfl (by decide +kernel) instPayload instPlain (by decide +kernel)

/-! ## Whole datagrams (C67, C73, C109, C112, C113) -/

example : (decodePackets .debug exConn (makeResultStream (exOut 4 ++ (exOut 4 ++ [])))).1 =
    .ok [.initial ⟨exHeader 4, [], 1, exPn 4, instFrames⟩, .initial ⟨exHeader 4, [], 1, exPn 4, instFrames⟩] :=
  C67_none_fails_partial .debug exConn [(exOut 4, .initial ⟨exHeader 4, [], 1, exPn 4, instFrames⟩), (exOut 4, .initial ⟨exHeader 4, [], 1, exPn 4, instFrames⟩)]
    (fun x hx s => by simp at hx; subst hx; exact instInitial s)
theorem instWhole : decodePackets .debug exConn (makeResultStream (exOut 4)) = (.ok [.initial ⟨exHeader 4, [], 1, exPn 4, instFrames⟩], []) := by decide +kernel
theorem instWholeRelease : decodePackets .release exConn (makeResultStream (exOut 4)) = (.ok [.initial ⟨exHeader 4, [], 1, exPn 4, instFrames⟩], []) :=
  (C73_decode_release exConn _ (by rw [instWhole]; rfl)).trans instWhole
example : decodePackets .debug exConn (makeResultStream (exOut 4)) = (.ok [.initial ⟨exHeader 4, [], 1, exPn 4, instFrames⟩], []) :=
  C73_decode_debug toy .debug exConn exConn_reachable _ (by decide +kernel) _ _ instWholeRelease
example : (decodePackets .release exConn (makeResultStream (exOut 4))).1 = .ok [.initial ⟨exHeader 4, [], 1, exPn 4, instFrames⟩] :=
  (C73_decode_agree toy .debug exConn exConn_reachable _ (by decide +kernel) _).mpr (by rw [instWhole])
example : ∃ x s', nextHeaderFromStream (makeResultStream exReset) = (.ok (.short x), s') ∧ (PacketHeader.short x).getPacketType = .ok .oneRtt :=
  C109_taken_for_one_rtt exResetToken exReset exReset_is
example : (decodePackets .release exConn (makeResultStream exReset)).1.isErr = true :=
  C109_refused_partial toy toy_laws .debug .release exConn exConn_reachable exResetToken exReset exReset_is
example : decodePacketsT .debug exConn (makeResultStream (exOut 4)) =
    (.ok [.initial ⟨exHeader 4, [], 1, exPn 4, instFrames⟩], [], (decodePacketsT .debug exConn (makeResultStream (exOut 4))).2.2) := by
  have := C113_same toy toy_laws .debug .debug exConn exConn_reachable (makeResultStream (exOut 4))
  rw [instWhole] at this
  rw [← (Prod.mk.inj this).1, ← (Prod.mk.inj this).2]
/-- A packet is one packet only: what is left after two readings of the same bytes is the same. -/
example (h : LongPacketHeader) (hp : h.isProtected = false) (token pnB payload out y : Bytes) (pn : Nat) (w : InitialWire toy exKeys h token pnB pn payload out)
    (e : exOut 4 ++ [1, 2, 3] = out ++ y) : h = exHeader 4 ∧ token = [] ∧ pnB = exPn 4 ∧ out = exOut 4 ∧ y = [1, 2, 3] := by
  obtain ⟨h1, h2, h3, h4, h5, -⟩ := C112_initial_unique toy_laws exKeys _ h _ token _ pnB _ payload _ out [1, 2, 3] y _ pn rfl hp (exOut_wire 4 (by decide)) w e
  exact ⟨h1.symm, h2.symm, h3.symm, h4.symm, h5.symm⟩
example (h : LongPacketHeader) (hp : h.isProtected = false) (pnB payload out y : Bytes) (pn : Nat) (w : HandshakeWire toy exKeys h pnB pn payload out)
    (e : exHsOut 4 ++ [1, 2, 3] = out ++ y) : h = exHsHeader 4 ∧ pnB = exPn 4 ∧ out = exHsOut 4 ∧ y = [1, 2, 3] := by
  obtain ⟨h1, h3, h4, h5, -⟩ := C112_handshake_unique toy_laws exKeys _ h _ pnB _ payload _ out [1, 2, 3] y _ pn rfl hp (exHsOut_wire 4 (by decide)) w e
  exact ⟨h1.symm, h3.symm, h4.symm, h5.symm⟩
example (h : LongPacketHeader) (hp : h.isProtected = false) (pnB payload out y : Bytes) (pn : Nat) (w : ZeroRttWire toy exKeys h pnB pn payload out)
    (e : exZeroOut 4 ++ [1, 2, 3] = out ++ y) : h = exZeroHeader 4 ∧ pnB = exPn 4 ∧ out = exZeroOut 4 ∧ y = [1, 2, 3] := by
  obtain ⟨h1, h3, h4, h5, -⟩ := C112_zerortt_unique toy_laws exKeys _ h _ pnB _ payload _ out [1, 2, 3] y _ pn rfl hp (exZeroOut_wire 4 (by decide)) w e
  exact ⟨h1.symm, h3.symm, h4.symm, h5.symm⟩
example (h : ShortPacketHeader) (hp : h.isProtected = false) (pnB payload : Bytes) (w : OneRttWire toy exKeys h pnB 1 payload (exOneOut 4)) :
    h = exOneHeader 4 ∧ pnB = exPn 4 ∧ payload = exPayload := by
  obtain ⟨h1, h3, h4⟩ := C112_onertt_unique toy_laws exKeys _ h _ pnB _ payload _ _ 1 hp.symm (exOneOut_wire 4 (by decide)) w
  exact ⟨h1.symm, h3.symm, (h4 rfl).symm⟩
/-- No Handshake packet starts with the bytes of the Initial packet. -/
example (k : Keys) (h : LongPacketHeader) (pnB payload out x y : Bytes) (pn : Nat) (w : HandshakeWire toy k h pnB pn payload out) : exOut 4 ++ x ≠ out ++ y := by
  intro e
  obtain ⟨hb, tl, lb, a1, a2, -, -, -, a6⟩ := exOut_wire 4 (by decide)
  obtain ⟨hb', lb', b1, b2, -, -, b6⟩ := w
  have a6' : Protected toy exKeys 0x0f (exHeader 4).headerByte (hb ++ (tl ++ [] ++ lb)) (exPn 4) 1 exPayload (exOut 4) := by simpa using a6
  exact absurd (C112_kinds exKeys k _ h hb hb' _ lb' _ pnB _ payload _ out x y _ pn .initial .handshake rfl rfl (by decide) a1 b1 a2 b2 a6' b6 e) (by decide)

/-! ## Executions (C85, C92, C101, C102, C106, C111) -/

example : ∃ tr s, Sys.Run toy .debug Sys.init tr s ∧ 3 ≤ (tr.countP fun e => isReceived e.2) ∧ 2 ≤ (tr.countP fun e => isInitialReceived e.2) := by
  obtain ⟨tr, s, x, y, hr, h1, h2, h3, h4⟩ := ex_reachable
  have hin : ∀ k ∈ [U160.ofU64 7, U160.ofU64 9], (s.sock.streams k).isSome := by
    intro k hk
    rcases List.mem_cons.mp hk with rfl | hk
    · rw [h1]; rfl
    · cases List.mem_singleton.mp hk
      rw [h3]; rfl
  have a := C85_memory hr [.ofU64 7, .ofU64 9] (by decide) hin
  have b := C85_connections hr [.ofU64 7, .ofU64 9] (by decide) hin
  simp only [List.map_cons, List.map_nil, queueLen, h1, h2, h3, h4] at a
  exact ⟨tr, s, hr, a, b⟩
example : ∃ tr s t, Sys.Run toy .debug Sys.init tr s ∧ (t, Label.received ⟨[0x43, 0, 0, 0, 0, 0, 0, 0, 7, 1, 2], 1⟩) ∈ tr := by
  obtain ⟨tr, s, x, y, hr, h1, h2, h3, h4⟩ := ex_reachable
  obtain ⟨⟨t, ht⟩, -⟩ := C85_datagrams hr _ x h1 _ (by rw [h2]; exact .head _)
  exact ⟨tr, s, t, hr, ht⟩
example : ∃ tr s x, Sys.Run toy .debug Sys.init tr s ∧ s.sock.streams (.ofU64 7) = some x ∧
    ∃ c dcid len, Connection.new toy true .v1 dcid len = .ok c ∧ x.queue.map (fun d => (s.sock.packetsFromDatagram .debug d).1) =
      [(decodePackets .debug c (makeResultStream [0x43, 0, 0, 0, 0, 0, 0, 0, 7, 1, 2])).1] := by
  obtain ⟨tr, s, x, y, hr, h1, h2, h3, h4⟩ := ex_reachable
  obtain ⟨_, _, _, tr2, c, dcid, len, -, -, e1, e2, e3⟩ := C111_queue_decodes hr _ x h1 .debug
  rw [← e2, h2] at e3
  exact ⟨tr, s, x, hr, h1, c, dcid, len, e1, by rw [h2]; exact e3⟩
example (l : Locks) (hl : l.streamsLocked = false) (udp : List Char) :
    exConn.dbg.render <:+: (({ Sock.bind with streams := tableInsert (fun _ => none) (.ofU64 7) (.fromConnection exConn) } : Sock).dbg l udp
      [(.ofU64 7, .fromConnection exConn)]).render :=
  C102_connections_shown _ l hl udp _ (lists_insert lists_empty rfl _) (.ofU64 7) (.fromConnection exConn) (tableInsert_same (fun _ => none) (.ofU64 7) _)
example : Tools.reformat [1, 2, 3] ≠ Tools.reformat [1, 2, 4] := fun e => absurd (C106_injective _ _ e) (by decide)

/-- The accepted packet with two bytes after its packet number, and those bytes, from `C33_initial_exact`. -/
example : ∃ hb tl lb plain skip L, LongFields exMalPacket.header (exMalPacket.header.headerByte :: hb) ∧ IsVarInt tl 0 ∧ IsVarInt lb L ∧
    Opened toy exKeys 0x0f 0xc1 (hb ++ tl ++ [] ++ lb) [0, 1] skip 1 plain (exMal 0 0) ∧ skip.length = 2 := by
  obtain ⟨out, hb, tl, lb, plain, skip, L, g1, g2, _, _, g5, g6, _, g8, _, _⟩ := (C33_initial_exact toy toy_laws .debug .debug exConn exConn_reachable exKeys exKeys_ok
    (makeResultStream (exMal 0 0)) [] exMalPacket (by decide +kernel)).mp (exMal_decoded .debug)
  obtain rfl : exMal 0 0 = out := makeResultStream_inj (by rw [g1, List.append_nil])
  refine ⟨hb, tl, lb, plain, skip, L, g2, g5, g6, g8, ?_⟩
  obtain ⟨_, _, _, _, _, _, _, _, _, pnM, _, _, _, i4, i5, _⟩ := g8
  rw [List.length_append, i4] at i5
  exact Nat.add_left_cancel (n := 2) i5

/-- The numbers of the accepted packets, from the exact conditions. -/
example : ∃ four : Bytes, beNat four = 1 ∧ ∃ hb lb plain, OpenedFour toy exKeys 0x0f (exHsHeader 4).headerByte (hb ++ lb) (exPn 4) four 1 plain (exHsOut 4) := by
  obtain ⟨out, hb, lb, plain, four, L, g1, _, _, _, _, _, g7, g8, _⟩ := (C33_handshake_exact toy .debug exHsConn exKeys exKeys_lens rfl rfl _ _ _ (by decide +kernel)).mp
    (instHandshake [])
  obtain rfl : exHsOut 4 = out := makeResultStream_inj (by rw [List.append_nil, List.append_nil] at g1; exact g1)
  exact ⟨four, g8, hb, lb, plain, g7⟩
example : ∃ p, decodeNextPacket .debug exAppConn (makeResultStream (exZeroOut 4) ++ []) = (.ok (.zeroRtt p), []) ∧ beNat p.packetNumberBytes = p.packetNumber.toNat := by
  obtain ⟨p, h, _⟩ := instZeroRtt []
  obtain ⟨_, _, _, _, _, _, _, _, _, _, _, _, _, _, g, _⟩ := (C33_zero_rtt_exact toy .debug exAppConn exKeys exKeys_lens rfl rfl _ _ p (by decide +kernel)).mp h
  exact ⟨p, h, g⟩
example : ∃ p, decodeNextPacket .debug exAppConn (makeResultStream (exOneOut 4)) = (.ok (.oneRtt p), []) ∧ beNat p.packetNumberBytes = p.packetNumber.toNat := by
  have h := C74_four_bytes_partial toy toy_laws .debug exAppConn exKeys exKeys_lens rfl rfl (exOneHeader 4) rfl (exPn 4) exPayload (exOneOut 4) 1
    instFrames (exOneOut_wire 4 (by decide)) rfl (by decide +kernel) (by decide +kernel)
  obtain ⟨_, _, _, _, _, _, _, _, _, _, g, _⟩ := (C33_one_rtt_exact toy .debug exAppConn exKeys exKeys_lens rfl rfl _ _ _).mp h
  exact ⟨_, h, g⟩

end QuicSea
