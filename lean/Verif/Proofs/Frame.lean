import Verif.Proofs.VarInt
import Verif.Proofs.Cid
import Verif.Spec.Frame
/-
Frame readers and writers against the grammar of `Spec.Frame`.
-/
namespace QuicSea
open Spec (beNat IsVarInt cidVal AckRangesWire EcnWire FrameBody)

theorem ranges_reads {rs : List AckRange} {b} (h : AckRangesWire rs b) : Reads (FrameAck.rangesFromDatagram rs.length) b rs := by
  induction h with
  | nil => exact Reads.pure _
  | cons h1 h2 _ ih =>
    have := (Reads.bind (varInt_reads h1) (Reads.map (varInt_reads h2)
      (f := fun y => ({ gap := _, ackRangeLength := y } : AckRange))) : Reads AckRange.fromDatagram _ _).bind (Reads.map ih)
      (f := fun r => FrameAck.rangesFromDatagram _ >>= fun rs => pure (r :: rs))
    rw [List.append_assoc] at this
    exact this
theorem ranges_sound (n : Nat) : Sound (FrameAck.rangesFromDatagram n) (fun rs b => AckRangesWire rs b ∧ rs.length = n) := by
  induction n with
  | zero => exact (Sound.pure _).mono (by rintro a bs ⟨rfl, rfl⟩; exact ⟨.nil, rfl⟩)
  | succ n ih =>
    intro s a s' h
    obtain ⟨r, s1, h1, h⟩ := Rd.bind_eq_ok h
    obtain ⟨rs, s2, h2, h⟩ := Rd.bind_eq_ok h
    cases h
    obtain ⟨g, s3, h3, h1⟩ := Rd.bind_eq_ok h1
    obtain ⟨l, s4, h4, h1⟩ := Rd.bind_eq_ok h1
    cases h1
    obtain ⟨b1, e1, r1⟩ := varInt_sound _ _ _ h3
    obtain ⟨b2, e2, r2⟩ := varInt_sound _ _ _ h4
    obtain ⟨b3, e3, r3, r4⟩ := ih _ _ _ h2
    exact ⟨b1 ++ (b2 ++ b3), by simp [e1, e2, e3], .cons r1 r2 r3, by simp [r4]⟩
theorem ecn_reads {e : EcnCounts} {b} (h : EcnWire e b) : Reads EcnCounts.fromDatagram b e := by
  obtain ⟨b1, b2, b3, h1, h2, h3, rfl⟩ := h
  exact Reads.bind (varInt_reads h1) (Reads.bind (varInt_reads h2) (Reads.map (varInt_reads h3)))
theorem ecn_sound : Sound EcnCounts.fromDatagram EcnWire := by
  intro s a s' h
  obtain ⟨x1, s1, h1, h⟩ := Rd.bind_eq_ok h
  obtain ⟨x2, s2, h2, h⟩ := Rd.bind_eq_ok h
  obtain ⟨x3, s3, h3, h⟩ := Rd.bind_eq_ok h
  cases h
  obtain ⟨b1, e1, r1⟩ := varInt_sound _ _ _ h1
  obtain ⟨b2, e2, r2⟩ := varInt_sound _ _ _ h2
  obtain ⟨b3, e3, r3⟩ := varInt_sound _ _ _ h3
  exact ⟨_, by rw [e1, e2, e3]; simp only [makeResultStream_append, List.append_assoc], b1, b2, b3, r1, r2, r3, rfl⟩

/-- Exact description of what the frame parser accepts after the type byte `t`, leaving `rest`. Frames other than CRYPTO and STREAM as
in RFC 9000; CRYPTO with `length + offset` data bytes; STREAM ignoring the offset and length flags and taking all that is left. -/
inductive CodeBody : Frame → Nat → Bytes → Stream → Prop
  | std {f t b rest} : (∀ last, FrameBody last f t b) → t ≠ 0x06 → ¬ (0x08 ≤ t ∧ t ≤ 0x0f) → CodeBody f t b rest
  | crypto {x : FrameCrypto} {b1 b2 rest} : IsVarInt b1 x.offset.toNat → IsVarInt b2 x.length.toNat →
      x.cryptoData.length = x.length.toNat + x.offset.toNat → CodeBody (.crypto x) 0x06 (b1 ++ (b2 ++ x.cryptoData)) rest
  | stream {id : U64} {data : Bytes} {t b1} : 0x08 ≤ t → t ≤ 0x0f → IsVarInt b1 id.toNat →
      CodeBody (.stream ⟨id, 0, BitVec.ofNat 64 data.length, data, decide (t % 2 = 1)⟩) t (b1 ++ data) []

theorem crypto_total_no_overflow {a b : U64} (ha : a.toNat < 2 ^ 62) (hb : b.toNat < 2 ^ 62) :
    (a + b).toNat = a.toNat + b.toNat := by
  rw [BitVec.toNat_add]; omega

/-- The stream flags as the code computes them. -/
theorem stream_flags (tb : U8) : (decide (tb &&& 0x04 = 1) = false) ∧ (decide (tb &&& 0x02 = 1) = false) ∧
    decide (tb &&& 0x01 = 1) = decide (tb.toNat % 2 = 1) := by
  revert tb; decide +kernel
theorem stream_fromDatagram_eq (tb : U8) : FrameStream.fromDatagram tb = (do
    let id ← varIntFromStream
    let data ← allBytesFromStream
    pure ⟨id, 0, BitVec.ofNat 64 data.length, data, decide (tb.toNat % 2 = 1)⟩) := by
  obtain ⟨h1, h2, h3⟩ := stream_flags tb
  unfold FrameStream.fromDatagram
  simp only [h1, h2, h3]
  rfl

theorem type_cases (tb : U8) (h : tb.toNat ≤ 0x1e) :
    (8 ≤ tb.toNat ∧ tb.toNat ≤ 15) ∨ tb = 0 ∨ tb = 1 ∨ tb = 2 ∨ tb = 3 ∨ tb = 4 ∨ tb = 5 ∨ tb = 6 ∨ tb = 7 ∨ tb = 0x10 ∨ tb = 0x11 ∨
    tb = 0x12 ∨ tb = 0x13 ∨ tb = 0x14 ∨ tb = 0x15 ∨ tb = 0x16 ∨ tb = 0x17 ∨ tb = 0x18 ∨ tb = 0x19 ∨ tb = 0x1a ∨ tb = 0x1b ∨
    tb = 0x1c ∨ tb = 0x1d ∨ tb = 0x1e := by
  revert tb; decide +kernel

theorem body_stream (tb : U8) (h : 8 ≤ tb.toNat ∧ tb.toNat ≤ 15) :
    deserializeFrameBody tb = (do let x ← FrameStream.fromDatagram tb; pure (.stream x)) := by
  unfold deserializeFrameBody
  dsimp only
  rw [if_neg (by omega), if_neg (by omega), if_neg (by omega), if_neg (by omega), if_neg (by omega), if_neg (by omega),
    if_neg (by omega), if_pos h]
theorem body_invalid (tb : U8) (h : 0x1e < tb.toNat) :
    deserializeFrameBody tb = Rd.fail (.internalError "Invalid type byte") := by
  unfold deserializeFrameBody
  dsimp only
  repeat rw [if_neg (by omega)]

/-- Completeness of the frame body parser on its language. -/
theorem codeBody_complete {f : Frame} {tb : U8} {b : Bytes} {rest : Stream} (h : CodeBody f tb.toNat b rest) :
    deserializeFrameBody tb (makeResultStream b ++ rest) = (.ok f, rest) := by
  generalize ht : tb.toNat = t at h
  have lit : ∀ v : U8, t = v.toNat → tb = v := fun v hv => BitVec.eq_of_toNat_eq (ht.trans hv)
  cases h with
  | stream h1 h2 h3 =>
    rw [body_stream tb (by omega), stream_fromDatagram_eq, ht, makeResultStream_append, List.append_nil]
    exact (Rd.bind_ok ((Rd.bind_ok (varInt_reads h3 _)).trans (Rd.bind_ok (allBytes_run _)))).trans rfl
  | @crypto x b1 b2 rest h1 h2 h3 =>
    rw [lit 6 rfl]
    have e : (x.length + x.offset).toNat = x.cryptoData.length := by
      rw [crypto_total_no_overflow h2.lt h1.lt, h3]
    refine Reads.map (f := Frame.crypto) (m := FrameCrypto.fromDatagram) ?_ rest
    refine Reads.bind (varInt_reads h1) (Reads.bind (varInt_reads h2) ?_)
    exact Reads.map (varBytes_reads' e.symm)
  | std hb h6 h8 =>
    refine (?_ : Reads (deserializeFrameBody tb) b f) rest
    cases hb true with
    | padding => rw [lit 0 rfl]; exact Reads.pure _
    | ping => rw [lit 1 rfl]; exact Reads.pure _
    | @ack x b1 b2 b3 b4 b5 h1 h2 h3 h4 h5 hc he =>
      rw [lit 2 rfl]
      refine Reads.map (f := Frame.ack) (m := FrameAck.fromDatagram 2) ?_
      refine Reads.bind (varInt_reads h1) (Reads.bind (varInt_reads h2) (Reads.bind (varInt_reads h3) (Reads.bind (varInt_reads h4) ?_)))
      refine Reads.bind' (b2 := []) (by rw [hc]; exact ranges_reads h5) (Reads.bind' (a := none) (Reads.pure none) (b2 := []) ?_ rfl) (by simp)
      rw [← he]
      exact Reads.pure _
    | @ackEcn x e b1 b2 b3 b4 b5 b6 h1 h2 h3 h4 h5 h5' hc he =>
      rw [lit 3 rfl]
      refine Reads.map (f := Frame.ack) (m := FrameAck.fromDatagram 3) ?_
      refine Reads.bind (varInt_reads h1) (Reads.bind (varInt_reads h2) (Reads.bind (varInt_reads h3) (Reads.bind (varInt_reads h4) ?_)))
      refine Reads.bind' (b2 := b6) (by rw [hc]; exact ranges_reads h5)
        (Reads.bind' (ecn_reads h5') (Reads.bind' (b1 := []) (Reads.pure (some e)) (b2 := []) ?_ rfl) (by simp)) rfl
      rw [← he]
      exact Reads.pure _
    | resetStream h1 h2 h3 =>
      rw [lit 4 rfl]
      refine Reads.map (f := Frame.resetStream) (m := FrameResetStream.fromDatagram) ?_
      exact Reads.bind (varInt_reads h1) (Reads.bind (varInt_reads h2) (Reads.map (varInt_reads h3)))
    | stopSending h1 h2 =>
      rw [lit 5 rfl]
      refine Reads.map (f := Frame.stopSending) (m := FrameStopSending.fromDatagram) ?_
      exact Reads.bind (varInt_reads h1) (Reads.map (varInt_reads h2))
    | crypto => exact absurd rfl h6
    | newToken h1 h2 =>
      rw [lit 7 rfl]
      refine Reads.map (f := Frame.newToken) (m := FrameNewToken.fromDatagram) ?_
      exact Reads.bind (varInt_reads h1) (Reads.map (varBytes_reads' h2))
    | stream => exfalso; apply h8; split <;> split <;> split <;> decide
    | maxData h1 =>
      rw [lit 0x10 rfl]
      exact Reads.map (f := Frame.maxData) (m := FrameMaxData.fromDatagram) (Reads.map (varInt_reads h1))
    | maxStreamData h1 h2 =>
      rw [lit 0x11 rfl]
      refine Reads.map (f := Frame.maxStreamData) (m := FrameMaxStreamData.fromDatagram) ?_
      exact Reads.bind (varInt_reads h1) (Reads.map (varInt_reads h2))
    | @maxStreams x b1 h1 =>
      rcases x with ⟨v, u⟩
      cases u with
      | false =>
        rw [lit 0x12 rfl]
        exact Reads.map (f := Frame.maxStreams) (m := FrameMaxStreams.fromDatagram 0x12) (Reads.map (varInt_reads h1))
      | true =>
        rw [lit 0x13 rfl]
        exact Reads.map (f := Frame.maxStreams) (m := FrameMaxStreams.fromDatagram 0x13) (Reads.map (varInt_reads h1))
    | dataBlocked h1 =>
      rw [lit 0x14 rfl]
      exact Reads.map (f := Frame.dataBlocked) (m := FrameDataBlocked.fromDatagram) (Reads.map (varInt_reads h1))
    | streamDataBlocked h1 h2 =>
      rw [lit 0x15 rfl]
      refine Reads.map (f := Frame.streamDataBlocked) (m := FrameStreamDataBlocked.fromDatagram) ?_
      exact Reads.bind (varInt_reads h1) (Reads.map (varInt_reads h2))
    | @streamsBlocked x b1 h1 =>
      rcases x with ⟨v, u⟩
      cases u with
      | false =>
        rw [lit 0x16 rfl]
        exact Reads.map (f := Frame.streamsBlocked) (m := FrameStreamsBlocked.fromDatagram 0x16) (Reads.map (varInt_reads h1))
      | true =>
        rw [lit 0x17 rfl]
        exact Reads.map (f := Frame.streamsBlocked) (m := FrameStreamsBlocked.fromDatagram 0x17) (Reads.map (varInt_reads h1))
    | @newConnectionId x b1 b2 b3 b4 h1 h2 hl hl' h3 h3' h4 h4' =>
      rw [lit 0x18 rfl]
      refine Reads.map (f := Frame.newConnectionId) (m := FrameNewConnectionId.fromDatagram) ?_
      refine Reads.bind (varInt_reads h1) (Reads.bind (varInt_reads h2) (Reads.bind (u8_reads _) ?_))
      rw [if_neg (by omega)]
      exact Reads.bind (cid_reads h3 hl' h3'.symm) (Reads.map (uint_reads' (n := 16) _ (by decide) h4 h4'))
    | retireConnectionId h1 =>
      rw [lit 0x19 rfl]
      exact Reads.map (f := Frame.retireConnectionId) (m := FrameRetireConnectionId.fromDatagram) (Reads.map (varInt_reads h1))
    | pathChallenge h1 h2 =>
      rw [lit 0x1a rfl]
      exact Reads.map (f := Frame.pathChallenge) (m := FramePathChallenge.fromDatagram)
        (Reads.map (uint_reads' (n := 8) _ (by decide) h1 h2))
    | pathResponse h1 h2 =>
      rw [lit 0x1b rfl]
      exact Reads.map (f := Frame.pathResponse) (m := FramePathResponse.fromDatagram)
        (Reads.map (uint_reads' (n := 8) _ (by decide) h1 h2))
    | @connectionCloseTransport x t b1 b2 b3 h1 ht h2 h3 h4 ha =>
      rw [lit 0x1c rfl]
      rcases x with ⟨ec, ft, rl, rp, ia⟩
      cases ha; cases ht
      refine Reads.map (f := Frame.connectionClose) (m := FrameConnectionClose.fromDatagram 0x1c) ?_
      refine Reads.bind (varInt_reads h1) (Reads.bind (varInt_reads h2) (Reads.bind' (Reads.pure (some t)) ?_ rfl))
      exact Reads.bind (varInt_reads h3) (Reads.map (varBytes_reads' h4))
    | @connectionCloseApp x b1 b3 h1 ht h3 h4 ha =>
      rw [lit 0x1d rfl]
      rcases x with ⟨ec, ft, rl, rp, ia⟩
      cases ha; cases ht
      refine Reads.map (f := Frame.connectionClose) (m := FrameConnectionClose.fromDatagram 0x1d) ?_
      refine Reads.bind (varInt_reads h1) (Reads.bind' (Reads.pure none) ?_ rfl)
      exact Reads.bind (varInt_reads h3) (Reads.map (varBytes_reads' h4))
    | handshakeDone => rw [lit 0x1e rfl]; exact Reads.pure _

theorem Sound.std {m : Rd Frame} {t : Nat} (h6 : t ≠ 6) (h8 : ¬ (8 ≤ t ∧ t ≤ 15))
    (h : Sound m (fun f b => ∀ last, FrameBody last f t b)) {s f s'} (hm : m s = (.ok f, s')) :
    ∃ b, s = makeResultStream b ++ s' ∧ CodeBody f t b s' := by
  obtain ⟨b, e, r⟩ := h _ _ _ hm
  exact ⟨b, e, .std r h6 h8⟩

/-- Soundness of the frame body parser for its language. -/
theorem codeBody_sound {f : Frame} {tb : U8} {s s' : Stream} (h : deserializeFrameBody tb s = (.ok f, s')) :
    ∃ b, s = makeResultStream b ++ s' ∧ CodeBody f tb.toNat b s' := by
  by_cases ht : tb.toNat ≤ 0x1e
  case neg =>
    rw [body_invalid tb (by omega)] at h
    cases h
  rcases type_cases tb ht with h8 | rfl | rfl | rfl | rfl | rfl | rfl | rfl | rfl | rfl | rfl | rfl | rfl | rfl | rfl | rfl | rfl | rfl |
    rfl | rfl | rfl | rfl | rfl | rfl
  · rw [body_stream tb h8, stream_fromDatagram_eq] at h
    obtain ⟨x, s1, h1, h⟩ := Rd.bind_eq_ok h
    cases h
    obtain ⟨id, s2, h2, h1⟩ := Rd.bind_eq_ok h1
    obtain ⟨data, s3, h3, h1⟩ := Rd.bind_eq_ok h1
    cases h1
    obtain ⟨rfl, rfl⟩ := allBytes_ok h3
    obtain ⟨b1, e1, r1⟩ := varInt_sound _ _ _ h2
    exact ⟨b1 ++ data, by simp [e1], .stream h8.1 h8.2 r1⟩
  · refine Sound.std (by decide) (by decide) ((Sound.pure Frame.padding).mono ?_) h
    rintro f b ⟨rfl, rfl⟩ last
    exact .padding
  · refine Sound.std (by decide) (by decide) ((Sound.pure Frame.ping).mono ?_) h
    rintro f b ⟨rfl, rfl⟩ last
    exact .ping
  · refine Sound.std (by decide) (by decide) ?_ h
    refine (Sound.bind (m := FrameAck.fromDatagram 2) (varInt_sound.bind fun _ => varInt_sound.bind fun _ => varInt_sound.bind fun _ =>
      varInt_sound.bind fun _ => (ranges_sound _).bind fun _ => (Sound.pure (none : Option EcnCounts)).bind fun _ => Sound.pure _)
      fun x => Sound.pure (Frame.ack x)).mono ?_
    rintro f b ⟨x, _, _, rfl, ⟨_, b1, _, rfl, r1, _, b2, _, rfl, r2, _, b3, _, rfl, r3, _, b4, _, rfl, r4, _, b5, _, rfl, ⟨r5, r6⟩,
      _, _, _, rfl, ⟨rfl, rfl⟩, rfl, rfl⟩, rfl, rfl⟩ last
    simp only [List.append_nil]
    exact .ack r1 r2 r3 r4 r5 r6.symm rfl
  · refine Sound.std (by decide) (by decide) ?_ h
    refine (Sound.bind (m := FrameAck.fromDatagram 3) (varInt_sound.bind fun _ => varInt_sound.bind fun _ => varInt_sound.bind fun _ =>
      varInt_sound.bind fun _ => (ranges_sound _).bind fun _ => ecn_sound.bind fun e => (Sound.pure (some e)).bind fun _ => Sound.pure _)
      fun x => Sound.pure (Frame.ack x)).mono ?_
    rintro f b ⟨x, _, _, rfl, ⟨_, b1, _, rfl, r1, _, b2, _, rfl, r2, _, b3, _, rfl, r3, _, b4, _, rfl, r4, _, b5, _, rfl, ⟨r5, r6⟩,
      _, b6, _, rfl, r7, _, _, _, rfl, ⟨rfl, rfl⟩, rfl, rfl⟩, rfl, rfl⟩ last
    simp only [List.append_nil]
    exact .ackEcn r1 r2 r3 r4 r5 r7 r6.symm rfl
  · refine Sound.std (by decide) (by decide) ?_ h
    refine (Sound.bind (m := FrameResetStream.fromDatagram) (varInt_sound.bind fun _ => varInt_sound.bind fun _ => varInt_sound.bind fun _ => Sound.pure _) fun x => Sound.pure (Frame.resetStream x)).mono ?_
    rintro f b ⟨x, _, _, rfl, ⟨_, b1, _, rfl, r1, _, b2, _, rfl, r2, _, b3, _, rfl, r3, rfl, rfl⟩, rfl, rfl⟩ last
    simp only [List.append_nil]
    exact .resetStream r1 r2 r3
  · refine Sound.std (by decide) (by decide) ?_ h
    refine (Sound.bind (m := FrameStopSending.fromDatagram) (varInt_sound.bind fun _ => varInt_sound.bind fun _ => Sound.pure _) fun x => Sound.pure (Frame.stopSending x)).mono ?_
    rintro f b ⟨x, _, _, rfl, ⟨_, b1, _, rfl, r1, _, b2, _, rfl, r2, rfl, rfl⟩, rfl, rfl⟩ last
    simp only [List.append_nil]
    exact .stopSending r1 r2
  · -- crypto
    obtain ⟨x, s1, h1, h⟩ := Rd.bind_eq_ok h
    cases h
    obtain ⟨o, s2, h2, h1⟩ := Rd.bind_eq_ok h1
    obtain ⟨l, s3, h3, h1⟩ := Rd.bind_eq_ok h1
    obtain ⟨d, s4, h4, h1⟩ := Rd.bind_eq_ok h1
    cases h1
    obtain ⟨b1, e1, r1⟩ := varInt_sound _ _ _ h2
    obtain ⟨b2, e2, r2⟩ := varInt_sound _ _ _ h3
    obtain ⟨b3, e3, rfl, r4⟩ := varBytes_sound _ _ _ _ h4
    rw [crypto_total_no_overflow r2.lt r1.lt] at r4
    exact ⟨b1 ++ (b2 ++ b3), by simp [e1, e2, e3], .crypto (x := ⟨o, l, b3⟩) r1 r2 r4⟩
  · refine Sound.std (by decide) (by decide) ?_ h
    refine (Sound.bind (m := FrameNewToken.fromDatagram) (varInt_sound.bind fun _ => (varBytes_sound _).bind fun _ => Sound.pure _)
      fun x => Sound.pure (Frame.newToken x)).mono ?_
    rintro f b ⟨x, _, _, rfl, ⟨_, b1, _, rfl, r1, _, b2, _, rfl, ⟨rfl, r2⟩, rfl, rfl⟩, rfl, rfl⟩ last
    simp only [List.append_nil]
    exact .newToken r1 r2
  · refine Sound.std (by decide) (by decide) ?_ h
    refine (Sound.bind (m := FrameMaxData.fromDatagram) (varInt_sound.bind fun _ => Sound.pure _) fun x => Sound.pure (Frame.maxData x)).mono ?_
    rintro f b ⟨x, _, _, rfl, ⟨_, b1, _, rfl, r1, rfl, rfl⟩, rfl, rfl⟩ last
    simp only [List.append_nil]
    exact .maxData r1
  · refine Sound.std (by decide) (by decide) ?_ h
    refine (Sound.bind (m := FrameMaxStreamData.fromDatagram) (varInt_sound.bind fun _ => varInt_sound.bind fun _ => Sound.pure _) fun x => Sound.pure (Frame.maxStreamData x)).mono ?_
    rintro f b ⟨x, _, _, rfl, ⟨_, b1, _, rfl, r1, _, b2, _, rfl, r2, rfl, rfl⟩, rfl, rfl⟩ last
    simp only [List.append_nil]
    exact .maxStreamData r1 r2
  · refine Sound.std (by decide) (by decide) ?_ h
    refine (Sound.bind (m := FrameMaxStreams.fromDatagram 0x12) (varInt_sound.bind fun _ => Sound.pure _) fun x => Sound.pure (Frame.maxStreams x)).mono ?_
    rintro f b ⟨x, _, _, rfl, ⟨_, b1, _, rfl, r1, rfl, rfl⟩, rfl, rfl⟩ last
    simp only [List.append_nil]
    exact .maxStreams (x := ⟨_, false⟩) r1
  · refine Sound.std (by decide) (by decide) ?_ h
    refine (Sound.bind (m := FrameMaxStreams.fromDatagram 0x13) (varInt_sound.bind fun _ => Sound.pure _) fun x => Sound.pure (Frame.maxStreams x)).mono ?_
    rintro f b ⟨x, _, _, rfl, ⟨_, b1, _, rfl, r1, rfl, rfl⟩, rfl, rfl⟩ last
    simp only [List.append_nil]
    exact .maxStreams (x := ⟨_, true⟩) r1
  · refine Sound.std (by decide) (by decide) ?_ h
    refine (Sound.bind (m := FrameDataBlocked.fromDatagram) (varInt_sound.bind fun _ => Sound.pure _) fun x => Sound.pure (Frame.dataBlocked x)).mono ?_
    rintro f b ⟨x, _, _, rfl, ⟨_, b1, _, rfl, r1, rfl, rfl⟩, rfl, rfl⟩ last
    simp only [List.append_nil]
    exact .dataBlocked r1
  · refine Sound.std (by decide) (by decide) ?_ h
    refine (Sound.bind (m := FrameStreamDataBlocked.fromDatagram) (varInt_sound.bind fun _ => varInt_sound.bind fun _ => Sound.pure _) fun x => Sound.pure (Frame.streamDataBlocked x)).mono ?_
    rintro f b ⟨x, _, _, rfl, ⟨_, b1, _, rfl, r1, _, b2, _, rfl, r2, rfl, rfl⟩, rfl, rfl⟩ last
    simp only [List.append_nil]
    exact .streamDataBlocked r1 r2
  · refine Sound.std (by decide) (by decide) ?_ h
    refine (Sound.bind (m := FrameStreamsBlocked.fromDatagram 0x16) (varInt_sound.bind fun _ => Sound.pure _) fun x => Sound.pure (Frame.streamsBlocked x)).mono ?_
    rintro f b ⟨x, _, _, rfl, ⟨_, b1, _, rfl, r1, rfl, rfl⟩, rfl, rfl⟩ last
    simp only [List.append_nil]
    exact .streamsBlocked (x := ⟨_, false⟩) r1
  · refine Sound.std (by decide) (by decide) ?_ h
    refine (Sound.bind (m := FrameStreamsBlocked.fromDatagram 0x17) (varInt_sound.bind fun _ => Sound.pure _) fun x => Sound.pure (Frame.streamsBlocked x)).mono ?_
    rintro f b ⟨x, _, _, rfl, ⟨_, b1, _, rfl, r1, rfl, rfl⟩, rfl, rfl⟩ last
    simp only [List.append_nil]
    exact .streamsBlocked (x := ⟨_, true⟩) r1
  · -- new connection id
    obtain ⟨x, s1, h1, h⟩ := Rd.bind_eq_ok h
    cases h
    obtain ⟨sn, s2, h2, h1⟩ := Rd.bind_eq_ok h1
    obtain ⟨rp, s3, h3, h1⟩ := Rd.bind_eq_ok h1
    obtain ⟨l, s4, h4, h1⟩ := Rd.bind_eq_ok h1
    split at h1
    · cases h1
    · next hl =>
      obtain ⟨c, s5, h5, h1⟩ := Rd.bind_eq_ok h1
      obtain ⟨k, s6, h6, h1⟩ := Rd.bind_eq_ok h1
      cases h1
      obtain ⟨b1, e1, r1⟩ := varInt_sound _ _ _ h2
      obtain ⟨b2, e2, r2⟩ := varInt_sound _ _ _ h3
      obtain ⟨_, e3, rfl⟩ := u8_sound _ _ _ h4
      obtain ⟨b4, e4, r4, r4'⟩ := cid_sound l (by omega) _ _ _ h5
      obtain ⟨b5, e5, r5, r5'⟩ := uint_sound' 16 (by decide) _ _ _ _ h6
      refine ⟨b1 ++ (b2 ++ ([l] ++ (b4 ++ b5))), by simp [e1, e2, e3, e4, e5], .std (fun last => ?_) (by decide) (by decide)⟩
      exact .newConnectionId (x := ⟨sn, rp, l, c, k⟩) r1 r2 (show 1 ≤ l.toNat by omega) (show l.toNat ≤ 20 by omega) r4 r4'.symm r5 r5'
  · refine Sound.std (by decide) (by decide) ?_ h
    refine (Sound.bind (m := FrameRetireConnectionId.fromDatagram) (varInt_sound.bind fun _ => Sound.pure _) fun x => Sound.pure (Frame.retireConnectionId x)).mono ?_
    rintro f b ⟨x, _, _, rfl, ⟨_, b1, _, rfl, r1, rfl, rfl⟩, rfl, rfl⟩ last
    simp only [List.append_nil]
    exact .retireConnectionId r1
  · refine Sound.std (by decide) (by decide) ?_ h
    refine (Sound.bind (m := FramePathChallenge.fromDatagram) ((uint_sound' 8 (by decide) _).bind fun _ => Sound.pure _)
      fun x => Sound.pure (Frame.pathChallenge x)).mono ?_
    rintro f b ⟨x, _, _, rfl, ⟨_, b1, _, rfl, ⟨r1, r2⟩, rfl, rfl⟩, rfl, rfl⟩ last
    simp only [List.append_nil]
    exact .pathChallenge r1 r2
  · refine Sound.std (by decide) (by decide) ?_ h
    refine (Sound.bind (m := FramePathResponse.fromDatagram) ((uint_sound' 8 (by decide) _).bind fun _ => Sound.pure _)
      fun x => Sound.pure (Frame.pathResponse x)).mono ?_
    rintro f b ⟨x, _, _, rfl, ⟨_, b1, _, rfl, ⟨r1, r2⟩, rfl, rfl⟩, rfl, rfl⟩ last
    simp only [List.append_nil]
    exact .pathResponse r1 r2
  · refine Sound.std (by decide) (by decide) ?_ h
    refine (Sound.bind (m := FrameConnectionClose.fromDatagram 0x1c) (varInt_sound.bind fun _ => varInt_sound.bind fun t =>
      (Sound.pure (some t)).bind fun _ => varInt_sound.bind fun _ => (varBytes_sound _).bind fun _ => Sound.pure _)
      fun x => Sound.pure (Frame.connectionClose x)).mono ?_
    rintro f b ⟨x, _, _, rfl, ⟨_, b1, _, rfl, r1, _, b2, _, rfl, r2, _, _, _, rfl, ⟨rfl, rfl⟩, _, b3, _, rfl, r3,
      _, b4, _, rfl, ⟨rfl, r4⟩, rfl, rfl⟩, rfl, rfl⟩ last
    simp only [List.append_nil, List.nil_append]
    exact .connectionCloseTransport r1 rfl r2 r3 r4 rfl
  · refine Sound.std (by decide) (by decide) ?_ h
    refine (Sound.bind (m := FrameConnectionClose.fromDatagram 0x1d) (varInt_sound.bind fun _ =>
      (Sound.pure none).bind fun _ => varInt_sound.bind fun _ => (varBytes_sound _).bind fun _ => Sound.pure _)
      fun x => Sound.pure (Frame.connectionClose x)).mono ?_
    rintro f b ⟨x, _, _, rfl, ⟨_, b1, _, rfl, r1, _, _, _, rfl, ⟨rfl, rfl⟩, _, b3, _, rfl, r3,
      _, b4, _, rfl, ⟨rfl, r4⟩, rfl, rfl⟩, rfl, rfl⟩ last
    simp only [List.append_nil, List.nil_append]
    exact .connectionCloseApp r1 rfl r3 r4 rfl
  · refine Sound.std (by decide) (by decide) ((Sound.pure Frame.handshakeDone).mono ?_) h
    rintro f b ⟨rfl, rfl⟩ last
    exact .handshakeDone

end QuicSea
