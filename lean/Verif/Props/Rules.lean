import Verif.Props.Conform
import Verif.Spec.Rules
/-
C63-C68: rules of RFC 9000 on received packets and frames that the receiver of the crate does or does not enforce.
-/
namespace QuicSea
open Spec

/-- What an RFC 9000 sender holding the keys can have delivered: any frames of the plain kinds, with any header, in an Initial packet with a four-byte
packet number. -/
theorem delivered (P : Prims) (hP : PrimLaws P) (bp : Profile) (c : Connection) (hr : Connection.Reachable P bp c) (k : Keys)
    (hk : c.remoteSecrets .initial = .ok (secretsOf P k)) (h : LongPacketHeader) (hp : h.isProtected = false) (token pnB payload out : Bytes) (pn : U64)
    (fs : List Frame) (hw : InitialWire P k h token pnB pn.toNat payload out) (h4 : pnB.length = 4) (hv : beNat pnB = pn.toNat)
    (hfs : FramesWire fs payload) (hpl : ∀ f ∈ fs, Plain f) :
    decodePackets bp c (makeResultStream out) =
      (.ok [.initial { header := h, token, packetNumber := pn, packetNumberBytes := pnB, packetPayload := fs }], []) := by
  have := C36_any_packets bp c [(out, _)] (by
    intro y hy
    cases List.mem_singleton.mp hy
    exact C32_four_bytes_partial P hP bp c hr k hk h hp token pnB payload out pn fs hw h4 hv (by rw [framesWire_parse hfs hpl]))
  simpa using this

/-- The frames of a packet, for packets that have any. -/
def framesOf : Packet → List Frame
  | .initial p => p.packetPayload
  | .handshake p => p.packetPayload
  | .zeroRtt p => p.packetPayload
  | .oneRtt p => p.packetPayload
  | _ => []

/-! ## C63 -/

/-- C63, full statement (RFC 9000 section 12.4): a connection delivers a frame only from a packet in which it is permitted. -/
def C63For (P : Prims) : Prop := ∀ (bp : Profile) (c : Connection), Connection.Reachable P bp c → ∀ (s s' : Stream) (ps : List Packet),
  decodePackets bp c s = (.ok ps, s') → ∀ p ∈ ps, ∀ f ∈ framesOf p, permitted p.kind f = true
/-- The claim, for all algorithms that obey the laws. -/
def C63Statement : Prop := ∀ P, PrimLaws P → C63For P

/-- C63 is false for all frames of the plain kinds (all but STREAM, and CRYPTO with an offset), permitted or not: in an Initial packet they are
delivered, on every connection, ... -/
theorem C63_any_frames_delivered (P : Prims) (hP : PrimLaws P) (bp : Profile) (c : Connection) (hr : Connection.Reachable P bp c) (k : Keys)
    (hk : c.remoteSecrets .initial = .ok (secretsOf P k)) (h : LongPacketHeader) (hp : h.isProtected = false) (token pnB payload out : Bytes) (pn : U64)
    (fs : List Frame) (hw : InitialWire P k h token pnB pn.toNat payload out) (h4 : pnB.length = 4) (hv : beNat pnB = pn.toNat)
    (hfs : FramesWire fs payload) (hpl : ∀ f ∈ fs, Plain f) :
    ∃ p, decodePackets bp c (makeResultStream out) = (.ok [.initial p], []) ∧ p.packetPayload = fs :=
  ⟨_, delivered P hP bp c hr k hk h hp token pnB payload out pn fs hw h4 hv hfs hpl, rfl⟩
/-- ... and `PacketInitial::new` and `PacketHandshake::new` put any frames whatever into a packet. -/
theorem C63_any_frames_built (bp : Profile) (c : Connection) (fs fs' : List Frame) (token : Option Bytes) (p : PacketInitial) (q : PacketHandshake) :
    ((PacketInitial.new bp fs token c).1 = .ok p → (PacketInitial.new bp fs' token c).1 = .ok { p with packetPayload := fs' }) ∧
    ((PacketHandshake.new bp fs c).1 = .ok q → (PacketHandshake.new bp fs' c).1 = .ok { q with packetPayload := fs' }) := by
  constructor
  · intro h
    unfold PacketInitial.new at h ⊢
    rcases e : c.getNextPn bp .initial with ⟨o, c'⟩
    rw [e] at h
    cases o with
    | ok a =>
      dsimp only at h ⊢
      split at h
      · cases h
      · rename_i hn
        rw [if_neg hn]
        obtain ⟨hd, e1, e2⟩ := Out.bind_eq_ok h
        cases e2
        rw [e1]
        rfl
    | err w => cases h
    | panic w => cases h
  · intro h
    unfold PacketHandshake.new at h ⊢
    rcases e : c.getNextPn bp .handshake with ⟨o, c'⟩
    rw [e] at h
    cases o with
    | ok a =>
      dsimp only at h ⊢
      split at h
      · cases h
      · rename_i hn
        rw [if_neg hn]
        obtain ⟨hd, e1, e2⟩ := Out.bind_eq_ok h
        cases e2
        rw [e1]
        rfl
    | err w => cases h
    | panic w => cases h
/-- C63, the part that holds: from packets other than Initial packets, no frame is ever delivered.
Missing for the full statement: frames in Initial packets, for which it is false (`C63_any_frames_delivered`). -/
theorem C63_only_initial_partial (P : Prims) (hP : PrimLaws P) (bp bp' : Profile) (c : Connection) (hr : Connection.Reachable P bp c) (s s' : Stream) (p : Packet)
    (h : decodeNextPacket bp' c s = (.ok p, s')) (f : Frame) (hf : f ∈ framesOf p) : p.kind = .initial := by
  rcases C34_never_decoded P hP bp bp' c hr s s' p h with e | e
  · exact e
  · cases p <;> first | cases e; done | exact absurd hf (by simp [framesOf])

/-- An Initial packet to the toy server with the given frames, header bits and payload. -/
def exSealed (first : U8) (payload : Bytes) : Bytes :=
  let mid : Bytes := [0, 0, 0, 1, 8, 1, 2, 3, 4, 5, 6, 7, 8, 2, 0x11, 0x22, 0, BitVec.ofNat 8 (payload.length + 20)]
  let ct := (Spec.toy.gcmSeal exKeys.key (rfcNonce exKeys.iv [0, 0, 0, 0, 0, 0, 0, 1]) ([first] ++ mid ++ [0, 0, 0, 1]) payload).getD ([], [])
  let m := (Spec.toy.aesEcb exKeys.hp ((ct.1 ++ ct.2).take 16)).getD []
  [first ^^^ (m[0]! &&& 0x0f)] ++ mid ++ [m[1]!, m[2]!, m[3]!, 1 ^^^ m[4]!] ++ ct.1 ++ ct.2
def okPackets : Out (List Packet) → List Packet
  | .ok ps => ps
  | _ => []
theorem okPackets_eq (x : Out (List Packet) × Stream) (h : x.1.isOk = true) : x = (.ok (okPackets x.1), x.2) := by
  rcases x with ⟨o, s⟩
  cases o <;> first | rfl | cases h

/-- Non-trivial instances: a packet with frames of kinds an Initial packet may not have meets the hypotheses, and such packets are built. -/
example : (okPackets (decodePackets .debug exConn (makeResultStream (exSealed 0xc3 [0x10, 5, 0x1e]))).1).map framesOf = [[.maxData ⟨5⟩, .handshakeDone]] ∧
    (PacketInitial.new .debug [.maxData ⟨5⟩, .handshakeDone] none (exClient.run .debug exOps).2).1.isOk = true := by decide +kernel

/-- A MAX_DATA and a HANDSHAKE_DONE frame in an Initial packet. -/
theorem C63_false : ¬ C63Statement := by
  intro h
  have e := okPackets_eq (decodePackets .debug exConn (makeResultStream (exSealed 0xc3 [0x10, 5, 0x1e]))) (by decide +kernel)
  have := h toy toy_laws .debug exConn exConn_reachable _ _ _ e
  revert this
  decide +kernel

/-! ## C64 -/

/-- C64, full statement (RFC 9000 section 12.4): a packet without frames is not delivered. -/
def C64For (P : Prims) : Prop := ∀ (bp : Profile) (c : Connection), Connection.Reachable P bp c → ∀ (s s' : Stream) (ps : List Packet),
  decodePackets bp c s = (.ok ps, s') → ∀ p, Packet.initial p ∈ ps → p.packetPayload ≠ []
/-- The claim, for all algorithms that obey the laws. -/
def C64Statement : Prop := ∀ P, PrimLaws P → C64For P

/-- C64 is false for every such packet with a four-byte packet number. -/
theorem C64_empty_delivered (P : Prims) (hP : PrimLaws P) (bp : Profile) (c : Connection) (hr : Connection.Reachable P bp c) (k : Keys)
    (hk : c.remoteSecrets .initial = .ok (secretsOf P k)) (h : LongPacketHeader) (hp : h.isProtected = false) (token pnB out : Bytes) (pn : U64)
    (hw : InitialWire P k h token pnB pn.toNat [] out) (h4 : pnB.length = 4) (hv : beNat pnB = pn.toNat) :
    ∃ p, decodePackets bp c (makeResultStream out) = (.ok [.initial p], []) ∧ p.packetPayload = [] :=
  ⟨_, delivered P hP bp c hr k hk h hp token pnB [] out pn [] hw h4 hv .nil (by simp), rfl⟩
/-- C64, the part that holds: a payload that is not empty is delivered with frames or not at all.
Missing for the full statement: empty payloads, for which it is false (`C64_empty_delivered`). -/
theorem C64_nonempty_partial (payload : Bytes) (hne : payload ≠ []) (fs : List Frame) (h : (deserializeFrames (makeResultStream payload)).1 = .ok fs) :
    fs ≠ [] := by
  rintro rfl
  obtain ⟨-, bs, e, hc⟩ := frames_iff.mp (Prod.ext h rfl : deserializeFrames (makeResultStream payload) = (.ok [], _))
  cases hc
  exact hne (makeResultStream_inj e)
example : (okPackets (decodePackets .debug exConn (makeResultStream (exSealed 0xc3 []))).1).map framesOf = [[]] ∧
    (deserializeFrames (makeResultStream [0, 0])).1 = .ok [.padding, .padding] := by decide +kernel
theorem C64_false : ¬ C64Statement := by
  intro h
  have e := okPackets_eq (decodePackets .debug exConn (makeResultStream (exSealed 0xc3 []))) (by decide +kernel)
  have := h toy toy_laws .debug exConn exConn_reachable _ _ _ e
  have hm : ∃ p, Packet.initial p ∈ okPackets (decodePackets .debug exConn (makeResultStream (exSealed 0xc3 []))).1 ∧ p.packetPayload = [] := by
    have hs : (match okPackets (decodePackets .debug exConn (makeResultStream (exSealed 0xc3 []))).1 with
      | [.initial p] => decide (p.packetPayload = []) | _ => false) = true := by decide +kernel
    split at hs
    · rename_i p he
      exact ⟨p, by rw [he]; exact List.mem_singleton.mpr rfl, of_decide_eq_true hs⟩
    · cases hs
  obtain ⟨p, h1, h2⟩ := hm
  exact this p h1 h2

/-! ## C65 -/

/-- The Fixed Bit is 1 and the Reserved Bits are 0 (RFC 9000 section 17.2). -/
def BitsOk (first : U8) : Prop := first.toNat / 64 % 2 = 1 ∧ first.toNat / 4 % 4 = 0

/-- C65, full statement: a packet is delivered only if its Fixed Bit is 1 and, with protection removed, its Reserved Bits are 0. -/
def C65For (P : Prims) : Prop := ∀ (bp : Profile) (c : Connection), Connection.Reachable P bp c → ∀ (s s' : Stream) (ps : List Packet),
  decodePackets bp c s = (.ok ps, s') → ∀ p, Packet.initial p ∈ ps → BitsOk p.header.headerByte
/-- The claim, for all algorithms that obey the laws. -/
def C65Statement : Prop := ∀ P, PrimLaws P → C65For P

/-- C65 is false for every value of these bits: the packet is delivered, and its header shows the bits as they were sent. -/
theorem C65_any_bits_delivered (P : Prims) (hP : PrimLaws P) (bp : Profile) (c : Connection) (hr : Connection.Reachable P bp c) (k : Keys)
    (hk : c.remoteSecrets .initial = .ok (secretsOf P k)) (h : LongPacketHeader) (hp : h.isProtected = false) (token pnB payload out : Bytes) (pn : U64)
    (fs : List Frame) (hw : InitialWire P k h token pnB pn.toNat payload out) (h4 : pnB.length = 4) (hv : beNat pnB = pn.toNat)
    (hfs : FramesWire fs payload) (hpl : ∀ f ∈ fs, Plain f) (_ : ¬ BitsOk h.headerByte) :
    ∃ p, decodePackets bp c (makeResultStream out) = (.ok [.initial p], []) ∧ p.header.headerByte = h.headerByte :=
  ⟨_, delivered P hP bp c hr k hk h hp token pnB payload out pn fs hw h4 hv hfs hpl, rfl⟩
/-- C65, the part that holds: all packets built have these bits right.
Missing for the full statement: packets received, for which it is false (`C65_any_bits_delivered`). -/
theorem C65_built_partial (bp : Profile) (c : Connection) (fs : List Frame) (token : Option Bytes) :
    (∀ p, (PacketInitial.new bp fs token c).1 = .ok p → BitsOk p.header.headerByte) ∧
    (∀ p, (PacketHandshake.new bp fs c).1 = .ok p → BitsOk p.header.headerByte) := by
  constructor
  · intro p h
    obtain ⟨sc, sl, e1, e2, e3, e4, _⟩ := initialNew_facts h
    unfold BitsOk
    omega
  · intro p h
    obtain ⟨sc, sl, e1, e2, e3, e4, _⟩ := handshakeNew_facts h
    unfold BitsOk
    omega
example : ¬ BitsOk 0x8f ∧ BitsOk 0xc3 ∧ (okPackets (decodePackets .debug exConn (makeResultStream (exSealed 0x8f [1]))).1).length = 1 := by
  refine ⟨fun h => absurd h.1 (by decide), ⟨by decide, by decide⟩, by decide +kernel⟩
theorem C65_false : ¬ C65Statement := by
  intro h
  have e := okPackets_eq (decodePackets .debug exConn (makeResultStream (exSealed 0x8f [1]))) (by decide +kernel)
  have := h toy toy_laws .debug exConn exConn_reachable _ _ _ e
  have hs : (match okPackets (decodePackets .debug exConn (makeResultStream (exSealed 0x8f [1]))).1 with
    | [.initial p] => decide (p.header.headerByte = 0x8f) | _ => false) = true := by decide +kernel
  split at hs
  · rename_i p he
    have := this p (by rw [he]; exact List.mem_singleton.mpr rfl)
    rw [of_decide_eq_true hs] at this
    exact absurd this.1 (by decide)
  · cases hs

/-! ## C66 -/

/-- C66, full statement (RFC 9000 section 12.3): no packet number is delivered twice in a packet number space. Said for Initial packets. -/
def C66For (P : Prims) : Prop := ∀ (bp : Profile) (c : Connection), Connection.Reachable P bp c → ∀ (s s' : Stream) (ps : List Packet),
  decodePackets bp c s = (.ok ps, s') → ∀ (l1 l2 l3 : List Packet) (p q : PacketInitial), ps = l1 ++ .initial p :: (l2 ++ .initial q :: l3) →
  p.packetNumber ≠ q.packetNumber
/-- The claim, for all algorithms that obey the laws. -/
def C66Statement : Prop := ∀ P, PrimLaws P → C66For P

/-- C66 is false for every packet that can be delivered: `n` copies of it in a datagram are delivered `n` times, ... -/
theorem C66_copies_delivered (bp : Profile) (c : Connection) (out : Bytes) (p : Packet)
    (h : ∀ s, decodeNextPacket bp c (makeResultStream out ++ s) = (.ok p, s)) (n : Nat) :
    decodePackets bp c (makeResultStream (List.replicate n out).flatten) = (.ok (List.replicate n p), []) := by
  have := C36_any_packets bp c (List.replicate n (out, p)) (by
    intro x hx
    rw [List.eq_of_mem_replicate hx]
    exact h)
  simpa using this
/-- ... and a datagram that was delivered once is delivered again the same after whatever the connection did in between. -/
theorem C66_replay_delivered (bp : Profile) (c : Connection) (ops : List ConnOp) (s s' : Stream) (ps : List Packet)
    (h : decodePackets bp c s = (.ok ps, s')) : decodePackets bp (c.run bp ops).2 s = (.ok ps, s') := by
  rw [C71_history_independent, h]
/-- C66, the part that holds: what a connection delivers from the same bytes, at any two moments of its life and whatever follows them in their
datagrams, is equal, so that whoever compares packets can tell copies.
Missing for the full statement: that copies are discarded, which is false (`C66_copies_delivered`). -/
theorem C66_copies_equal_partial (bp bp1 bp2 : Profile) (c : Connection) (ops1 ops2 : List ConnOp) (out : Bytes) (s1 s2 : Stream) (p q : Packet)
    (h1 : ∀ s, decodeNextPacket bp (c.run bp1 ops1).2 (makeResultStream out ++ s) = (.ok p, s))
    (h2 : decodeNextPacket bp (c.run bp2 ops2).2 (makeResultStream out ++ s1) = (.ok q, s2)) : p = q ∧ s2 = s1 := by
  have e := decodeNext_congr bp (c.run bp2 ops2).2 (c.run bp1 ops1).2
    (fun sp => ((run_secrets bp2 ops2 c sp).2).trans ((run_secrets bp1 ops1 c sp).2).symm)
    (fun sp => ((run_acks bp2 ops2 c sp).2.1).trans ((run_acks bp1 ops1 c sp).2.1).symm)
  rw [e, h1] at h2
  cases h2
  exact ⟨rfl, rfl⟩
/-- Non-trivial instance: three copies in a datagram, which comes again after the connection has sent two packets. -/
example : (okPackets (decodePackets .debug exConn (makeResultStream (List.replicate 3 (exOut 4)).flatten)).1).length = 3 ∧
    (okPackets (decodePackets .debug (exConn.run .debug [.nextPn .initial, .nextPn .initial]).2
      (makeResultStream (List.replicate 3 (exOut 4)).flatten)).1).length = 3 := by decide +kernel
theorem C66_false : ¬ C66Statement := by
  intro h
  have e := okPackets_eq (decodePackets .debug exConn (makeResultStream (exSealed 0xc3 [1] ++ exSealed 0xc3 [1]))) (by decide +kernel)
  have := h toy toy_laws .debug exConn exConn_reachable _ _ _ e
  have hs : (match okPackets (decodePackets .debug exConn (makeResultStream (exSealed 0xc3 [1] ++ exSealed 0xc3 [1]))).1 with
    | [.initial p, .initial q] => decide (p.packetNumber = q.packetNumber) | _ => false) = true := by decide +kernel
  split at hs
  · rename_i p q he
    exact this [] [] [] p q he (of_decide_eq_true hs)
  · cases hs

/-! ## C67 -/

/-- C67, full statement (RFC 9000 section 12.2): packets before one that cannot be processed are delivered all the same. -/
def C67Statement : Prop := ∀ (bp : Profile) (c : Connection) (l : List (Bytes × Packet)) (bad : Bytes) (e : Error),
  (∀ x ∈ l, ∀ s, decodeNextPacket bp c (makeResultStream x.1 ++ s) = (.ok x.2, s)) →
  (decodeNextPacket bp c (makeResultStream bad)).1 = .err e →
  (decodePackets bp c (makeResultStream ((l.map Prod.fst).flatten ++ bad))).1 = .ok (l.map Prod.snd)

/-- C67 is false for all datagrams: whatever was decoded before, the outcome is the error of the packet that failed. -/
theorem C67_all_lost (bp : Profile) (c : Connection) (l : List (Bytes × Packet)) (bad : Bytes) (hne : bad ≠ []) (e : Error)
    (h : ∀ x ∈ l, ∀ s, decodeNextPacket bp c (makeResultStream x.1 ++ s) = (.ok x.2, s))
    (hb : (decodeNextPacket bp c (makeResultStream bad)).1 = .err e) :
    (decodePackets bp c (makeResultStream ((l.map Prod.fst).flatten ++ bad))).1 = .err e := by
  have hm : makeResultStream bad ≠ [] := by cases bad with
    | nil => exact absurd rfl hne
    | cons x xs => simp [makeResultStream]
  induction l with
  | nil =>
    rw [List.map_nil, List.flatten_nil, List.nil_append, decodePackets_eq bp c _ hm, Rd.bind_apply]
    rcases hd : decodeNextPacket bp c (makeResultStream bad) with ⟨o, s'⟩
    rw [hd] at hb
    dsimp only at hb
    subst hb
    rfl
  | cons x l ih =>
    have ih := ih (fun y hy => h y (List.mem_cons_of_mem _ hy))
    have hx := h x List.mem_cons_self (makeResultStream ((l.map Prod.fst).flatten ++ bad))
    rw [List.map_cons, List.flatten_cons, List.append_assoc, makeResultStream_append, decodePackets_eq _ _ _ (by simp [makeResultStream_append, hm]), Rd.bind_apply, hx]
    dsimp only
    rw [Rd.bind_apply]
    rcases hd : decodePackets bp c (makeResultStream ((l.map Prod.fst).flatten ++ bad)) with ⟨o, s'⟩
    rw [hd] at ih
    dsimp only at ih
    subst ih
    rfl
/-- C67, the part that holds: if none fails, all are delivered.
Missing for the full statement: datagrams with a packet that fails, for which it is false (`C67_all_lost`). -/
theorem C67_none_fails_partial (bp : Profile) (c : Connection) (l : List (Bytes × Packet))
    (h : ∀ x ∈ l, ∀ s, decodeNextPacket bp c (makeResultStream x.1 ++ s) = (.ok x.2, s)) :
    (decodePackets bp c (makeResultStream (l.map Prod.fst).flatten)).1 = .ok (l.map Prod.snd) := by rw [C36_any_packets bp c l h]
/-- Non-trivial instance and counterexample: one packet of the client and then a packet of 0-RTT data, which cannot be decrypted yet. -/
theorem C67_false : ¬ C67Statement := by
  intro h
  obtain ⟨p, hp⟩ : ∃ p, ∀ s, decodeNextPacket .debug exConn (makeResultStream (exOut 4) ++ s) = (.ok p, s) :=
    ⟨_, C32_four_bytes_partial toy toy_laws .debug exConn exConn_reachable exKeys exKeys_ok (exHeader 4) rfl [] (exPn 4) exPayload (exOut 4) 1
      (.ping :: List.replicate 20 .padding) (exOut_wire 4 (by decide)) rfl (by decide +kernel) (by decide +kernel)⟩
  have hb : ∃ e, (decodeNextPacket .debug exConn (makeResultStream [0xd0, 0, 0, 0, 1, 0, 0, 1, 0])).1 = .err e := by
    have hs : (decodeNextPacket .debug exConn (makeResultStream [0xd0, 0, 0, 0, 1, 0, 0, 1, 0])).1.isErr = true := by decide +kernel
    revert hs
    cases (decodeNextPacket .debug exConn (makeResultStream [0xd0, 0, 0, 0, 1, 0, 0, 1, 0])).1 with
    | err e => exact fun _ => ⟨e, rfl⟩
    | ok a => intro h; cases h
    | panic w => intro h; cases h
  obtain ⟨e, hb⟩ := hb
  have hl : ∀ x ∈ [(exOut 4, p)], ∀ s, decodeNextPacket .debug exConn (makeResultStream x.1 ++ s) = (.ok x.2, s) := by
    intro x hx
    rw [List.mem_singleton.mp hx]
    exact hp
  have h1 := h .debug exConn [(exOut 4, p)] _ e hl hb
  rw [C67_all_lost .debug exConn _ _ (by decide) e hl hb] at h1
  cases h1

/-! ## C68 -/

theorem codeFrames_stream {fs : List Frame} {b : Bytes} (h : CodeFrames fs b) {x : FrameStream} (hx : Frame.stream x ∈ fs) :
    ∃ data id fin, x = ⟨id, 0, BitVec.ofNat 64 data.length, data, fin⟩ := by
  induction h with
  | nil => cases hx
  | @cons f fs tb b bs t ht hcb _ ih =>
    rcases List.mem_cons.mp hx with rfl | hx
    · generalize t.toNat % 256 = u at hcb
      generalize makeResultStream bs = q at hcb
      cases hcb with
      | std h _ h8 =>
        cases h true
        exact absurd ⟨by omega, by (repeat' split) <;> omega⟩ h8
      | @stream id data _ b1 => exact ⟨data, id, _, rfl⟩
    · exact ih hx
theorem codeFrames_crypto {fs : List Frame} {b : Bytes} (h : CodeFrames fs b) {x : FrameCrypto} (hx : Frame.crypto x ∈ fs) :
    x.cryptoData.length = x.length.toNat + x.offset.toNat ∧ x.cryptoData.length ≤ b.length := by
  induction h with
  | nil => cases hx
  | @cons f fs tb b bs t ht hcb _ ih =>
    rcases List.mem_cons.mp hx with rfl | hx
    · generalize t.toNat % 256 = u at hcb
      generalize makeResultStream bs = q at hcb
      cases hcb with
      | std h h6 _ =>
        cases h true
        exact absurd rfl h6
      | crypto h1 h2 h3 =>
        refine ⟨h3, ?_⟩
        simp only [List.length_append]
        omega
    · have := ih hx
      simp only [List.length_append]
      omega

/-- C68, full statement: the frames delivered satisfy the limits of RFC 9000 section 19. -/
def C68Statement : Prop := ∀ (s s' : Stream) (fs : List Frame), s.length < 2 ^ 62 → deserializeFrames s = (.ok fs, s') → ∀ f ∈ fs, valid f = true

/-- C68 is false for every frame of the plain kinds that violates them: it is delivered as it was sent. -/
theorem C68_invalid_delivered (f : Frame) (bs : Bytes) (hp : Plain f) (hw : FramesWire [f] bs) (_ : valid f = false) :
    deserializeFrames (makeResultStream bs) = (.ok [f], []) :=
  framesWire_parse hw (by simpa using hp)
/-- C68, the part that holds: the limit on STREAM, the one on CRYPTO, and the one on the length of the id of NEW_CONNECTION_ID.
Missing for the full statement: the other limits, which are not checked (`C68_invalid_delivered`). -/
theorem C68_limits_partial (s s' : Stream) (fs : List Frame) (hs : s.length < 2 ^ 62) (h : deserializeFrames s = (.ok fs, s')) :
    (∀ x, Frame.stream x ∈ fs → valid (.stream x) = true) ∧ (∀ x, Frame.crypto x ∈ fs → valid (.crypto x) = true) ∧
    (∀ x, Frame.newConnectionId x ∈ fs → 1 ≤ x.length.toNat ∧ x.length.toNat ≤ 20) := by
  obtain ⟨_, bs, rfl, hc⟩ := frames_iff.mp h
  have hb : bs.length < 2 ^ 62 := by simpa using hs
  have hwf := codeFrames_wf hc hb
  refine ⟨?_, ?_, ?_⟩
  · intro x hx
    obtain ⟨data, id, t, rfl⟩ := codeFrames_stream hc hx
    have h1 := (hwf _ hx).1 (BitVec.ofNat 64 data.length) (by simp [intFields])
    have h1 : (BitVec.ofNat 64 data.length).toNat < 2 ^ 62 := h1
    refine decide_eq_true ?_
    show 0 + (BitVec.ofNat 64 data.length).toNat ≤ 2 ^ 62 - 1
    omega
  · intro x hx
    refine decide_eq_true ?_
    have := codeFrames_crypto hc hx
    omega
  · intro x hx
    rcases (hwf _ hx).2 with e | ⟨y, e, _⟩
    · exact ⟨e.1, e.2.1⟩
    · cases e
/-- Non-trivial instances: an ACK of negative numbers, and an empty token; STREAM, CRYPTO and NEW_CONNECTION_ID frames within the limits. -/
example : (deserializeFrames (makeResultStream [0x02, 1, 0, 0, 5, 0x07, 0])).1 = .ok [.ack ⟨1, 0, 0, 5, [], none⟩, .newToken ⟨0, []⟩] ∧
    valid (.ack ⟨1, 0, 0, 5, [], none⟩) = false ∧ valid (.newToken ⟨0, []⟩) = false := by decide +kernel
example : (deserializeFrames (makeResultStream [0x06, 0, 1, 9, 0x08, 4, 7, 7])).1 = .ok [.crypto ⟨0, 1, [9]⟩, .stream ⟨4, 0, 2, [7, 7], false⟩] := by decide +kernel
theorem C68_false : ¬ C68Statement := by
  intro h
  have := h (makeResultStream [0x12, 0xff, 0xff, 0xff, 0xff, 0xff, 0xff, 0xff, 0xff]) [] [.maxStreams ⟨2 ^ 62 - 1, false⟩] (by decide) (by decide +kernel) _ List.mem_cons_self
  revert this
  decide +kernel

end QuicSea
