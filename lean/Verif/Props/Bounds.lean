import Verif.Props.Exact
/-
C77: what decoding holds in memory, and how long its loops run, is bounded by the bytes received, whatever the counts and lengths in them say.
-/
namespace Spec
open QuicSea

/-- Elements of variable number held by a frame: its data bytes, and for an ACK frame two integers for each range. -/
def held : Frame → Nat
  | .ack x => 2 * x.ackRange.length
  | f => dataLen f
/-- One for each frame, and what it holds. -/
def heldAll (fs : List Frame) : Nat := (fs.map fun f => 1 + held f).sum
/-- The same for a packet: token and frames, or versions and connection ids. -/
def packetHeld : Packet → Nat
  | .initial p => p.token.length + heldAll p.packetPayload
  | .versionNegotiation p => 4 * p.supportedVersions.length +
    (match p.header.versionNegotiation with | some v => v.destinationConnectionId.length + v.sourceConnectionId.length | none => 0)
  | .zeroRtt p => heldAll p.packetPayload
  | .handshake p => heldAll p.packetPayload
  | .oneRtt p => heldAll p.packetPayload
  | .retry p => p.retryToken.length
end Spec

namespace QuicSea
open Spec

theorem ackRanges_len {rs : List AckRange} {b : Bytes} (h : AckRangesWire rs b) : 2 * rs.length ≤ b.length := by
  induction h with
  | nil => simp
  | cons h1 h2 _ ih =>
    have := h1.length_pos
    have := h2.length_pos
    simp only [List.length_cons, List.length_append]
    omega

theorem codeBody_held {f : Frame} {t : Nat} {b : Bytes} {rest : Stream} (h : CodeBody f t b rest) : held f ≤ b.length := by
  cases h with
  | crypto => simp [held, dataLen]; omega
  | stream => simp [held, dataLen]
  | std h _ _ =>
    cases h true with
    | ack _ _ _ _ h5 => have := ackRanges_len h5; simp [held]; omega
    | ackEcn _ _ _ _ h5 => have := ackRanges_len h5; simp [held]; omega
    | _ => simp [held, dataLen] <;> omega

/-- C77. Frames parsed from a payload hold no more than it has bytes. -/
theorem C77_payload (s s' : Stream) (fs : List Frame) (h : deserializeFrames s = (.ok fs, s')) : heldAll fs ≤ s.length := by
  obtain ⟨rfl, bs, rfl, hc⟩ := frames_iff.mp h
  clear h
  induction hc with
  | nil => simp [heldAll]
  | @cons f fs tb b bs t ht hb _ ih =>
    have hp := ht.length_pos
    have hd := codeBody_held hb
    simp only [heldAll, List.map_cons, List.sum_cons, makeResultStream_length, List.length_append] at ih ⊢
    omega

/-- C77. A packet delivered by a reachable connection holds at least seven elements fewer than the bytes it took from the datagram, an Initial packet 29
fewer. -/
theorem C77_packet (P : Prims) (hP : PrimLaws P) (bp bp' : Profile) (c : Connection) (hr : Connection.Reachable P bp c) (s s' : Stream) (p : Packet)
    (h : decodeNextPacket bp' c s = (.ok p, s')) :
    packetHeld p + 7 + s'.length ≤ s.length ∧ (p.kind = .initial → packetHeld p + 29 + s'.length ≤ s.length) := by
  rcases C34_never_decoded P hP bp bp' c hr s s' p h with e | e
  · cases p with
    | initial p =>
      obtain ⟨server, v, d, n, c0, ops, h0, rfl⟩ := hr
      obtain ⟨cid, k, e1, e2, e3, out, hb, tl, lb, plain, skip, L, g1, g2, g3, g4, g5, g6, g7, g8⟩ :=
        C33_initial P hP bp bp' server v d n c0 h0 ops s s' p h
      obtain ⟨nb, ct, tag, m0, m1, m2, m3, m4, r, pnM, i1, i2, i3, i4, i5, i6, i7, i8, rfl⟩ := g6
      have hlen := (hP.seal_length _ _ _ _ _ _ (hP.seal_open _ _ _ _ _ _ i3 i8)).1
      obtain ⟨vb, d', s', w1, w2, w3, w4, w5, w6⟩ := g2
      have hfs := C77_payload (makeResultStream plain) (deserializeFrames (makeResultStream plain)).2 p.packetPayload (by rw [← g8])
      have h1 := g4.length_pos
      have h2 := g5.length_pos
      have w1 := congrArg List.length w1
      simp only [makeResultStream_length] at hfs
      simp only [List.length_append, List.length_cons, List.length_nil] at w1 i5
      have hs := congrArg List.length g1
      simp only [makeResultStream_length, List.length_append, List.length_cons, List.length_nil] at hs
      refine ⟨?_, fun _ => ?_⟩ <;> (simp only [packetHeld]; omega)
    | _ => cases e
  · cases p with
    | versionNegotiation p =>
      obtain ⟨rfl, _, hb, groups, rfl, g2, _, g4, g5, g6⟩ := (C38_version_negotiation bp' c s s' p).mp h
      obtain ⟨vb, d', s', w1, w2, w3, w4, w5, w6⟩ := g2
      rw [if_pos g4] at w6
      have hg : groups.flatten.length = 4 * groups.length := by
        clear g6 h
        induction groups with
        | nil => rfl
        | cons g gs ih =>
          have := ih fun x hx => g5 x (List.mem_cons_of_mem _ hx)
          have := g5 g List.mem_cons_self
          simp only [List.flatten_cons, List.length_append, List.length_cons]
          omega
      have hv := congrArg List.length g6
      simp only [List.length_map] at hv
      have w1 := congrArg List.length w1
      simp only [List.length_append, List.length_cons, List.length_nil] at w1
      refine ⟨?_, fun e => (by cases e)⟩
      simp only [packetHeld, w6.1, makeResultStream_length, List.length_append, hg, List.length_nil]
      omega
    | _ => cases e

/-- C77. All packets of a datagram together hold no more than its bytes, seven of which are spent on each packet. -/
theorem C77_datagram (P : Prims) (hP : PrimLaws P) (bp bp' : Profile) (c : Connection) (hr : Connection.Reachable P bp c) (s s' : Stream) (ps : List Packet)
    (h : decodePackets bp' c s = (.ok ps, s')) : (ps.map packetHeld).sum + 7 * ps.length ≤ s.length := by
  generalize hn : s.length = n
  induction n using Nat.strongRecOn generalizing s ps with
  | ind n ih =>
    cases s with
    | nil => cases h; simp
    | cons x s =>
      rw [decodePackets_eq _ _ _ (by simp)] at h
      obtain ⟨p, s1, h1, h2⟩ := Rd.bind_eq_ok h
      obtain ⟨qs, s2, h3, h4⟩ := Rd.bind_eq_ok h2
      cases h4
      have hp := (C77_packet P hP bp bp' c hr _ _ _ h1).1
      have := ih s1.length (by omega) s1 qs h3 rfl
      simp only [List.map_cons, List.sum_cons, List.length_cons] at hp hn ⊢
      omega

theorem ackRange_consumes {s s' : Stream} {r : AckRange} (h : AckRange.fromDatagram s = (.ok r, s')) : s'.length < s.length := by
  obtain ⟨g, s1, h1, h2⟩ := Rd.bind_eq_ok h
  obtain ⟨l, s2, h3, h4⟩ := Rd.bind_eq_ok h2
  cases h4
  obtain ⟨b1, rfl, hb1⟩ := varInt_sound _ _ _ h1
  obtain ⟨b2, rfl, hb2⟩ := varInt_sound _ _ _ h3
  have := hb1.length_pos
  simp only [List.length_append, makeResultStream_length]
  omega
theorem ranges_count (k : Nat) (s : Stream) (n m : Nat) (hk : s.length ≤ k) (hn : s.length < n) (hm : s.length < m) :
    FrameAck.rangesFromDatagram n s = FrameAck.rangesFromDatagram m s := by
  induction k generalizing s n m with
  | zero =>
    cases s with
    | nil =>
      match n, m, hn, hm with
      | n + 1, m + 1, _, _ => rfl
    | cons x s => simp at hk
  | succ k ih =>
    match n, m, hn, hm with
    | n + 1, m + 1, hn, hm =>
      simp only [FrameAck.rangesFromDatagram, Rd.bind_apply]
      rcases hd : AckRange.fromDatagram s with ⟨o, s1⟩
      cases o with
      | ok r =>
        have hl := ackRange_consumes hd
        dsimp only
        rw [ih s1 n m (by omega) (by omega) (by omega)]
      | err e => rfl
      | panic e => rfl

/-- C77. The loops that read as many elements as the input says stop after at most one step more than there are bytes: with any larger count they do
the same. -/
theorem C77_loops (n : Nat) (s : Stream) :
    varBytesFromStream n s = varBytesFromStream (min n (s.length + 1)) s ∧
    FrameAck.rangesFromDatagram n s = FrameAck.rangesFromDatagram (min n (s.length + 1)) s := by
  constructor
  · induction n generalizing s with
    | zero => rw [Nat.zero_min]
    | succ n ih =>
      rw [show min (n + 1) (s.length + 1) = min n s.length + 1 by omega]
      simp only [varBytesFromStream, Rd.bind_apply]
      cases s with
      | nil => rfl
      | cons x s =>
        have := ih s
        cases x with
        | error e => rfl
        | ok b =>
          have e : nextOr "not enough bytes for var_bytes" (Except.ok b :: s) = (.ok b, s) := rfl
          rw [e]
          simp only [List.length_cons]
          rw [this]
  · by_cases h : n ≤ s.length + 1
    · rw [Nat.min_eq_left h]
    · rw [Nat.min_eq_right (by omega)]
      exact ranges_count s.length s _ _ (Nat.le_refl _) (by omega) (by omega)
/-- The bound of a datagram is reached: seven bytes, a Version Negotiation packet that holds nothing. -/
example : ((decodePackets .debug exConn (makeResultStream [0x80, 0, 0, 0, 0, 0, 0])).1.isErr = false) ∧
    (match (decodePackets .debug exConn (makeResultStream [0x80, 0, 0, 0, 0, 0, 0])).1 with
      | .ok ps => (ps.map packetHeld).sum + 7 * ps.length
      | _ => 0) = 7 := by decide +kernel
/-- Non-trivial instances: a count of 2^62 - 1 on three bytes; an ACK frame and a datagram at the bounds. -/
example : (varBytesFromStream (2 ^ 62 - 1) (makeResultStream [1, 2, 3])).1.isErr = true ∧
    (FrameAck.rangesFromDatagram (2 ^ 62 - 1) (makeResultStream [1, 2, 3])).1.isErr = true := by
  rw [(C77_loops _ _).1, (C77_loops _ _).2]
  decide +kernel
example : (deserializeFrames (makeResultStream [0, 0, 0])).1 = .ok [.padding, .padding, .padding] ∧
    heldAll [.padding, .padding, .padding] = 3 ∧ heldAll [.ack ⟨7, 0, 1, 0, [⟨2, 2⟩], none⟩, .newToken ⟨3, [1, 2, 3]⟩] = 7 := by decide +kernel

end QuicSea
