import Verif.Proofs.FrameRef
/-
Properties C10-C21: frames.
-/
namespace QuicSea
open Spec (beNat IsVarInt cidVal FrameBody FrameWire FrameWireAnyType FramesWire Consistent IntsFit WellFormed intFields dataLen)

/-- The frames whose parsing is right: no STREAM, and CRYPTO only as the constructor makes it. -/
def Plain : Frame → Prop
  | .stream _ => False
  | .crypto x => x.offset = 0
  | _ => True

theorem isVarInt_one (t : Nat) (h : t < 64) : IsVarInt [BitVec.ofNat 8 t] t :=
  ⟨0, by decide, rfl, h, by simp [beNat]; omega⟩

/-- What is legal on the wire and plain is in the language of the code's parser. -/
theorem wire_codeBody {l : Bool} {f : Frame} {t : Nat} {b : Bytes} (h : FrameBody l f t b) (hp : Plain f) (rest : Stream) :
    CodeBody f t b rest := by
  by_cases h6 : t = 6
  · subst h6
    generalize ht : 6 = t at h
    cases h with
    | crypto h1 h2 h3 =>
      have hp : _ = (0 : U64) := hp
      exact .crypto h1 h2 (by rw [hp, h3]; rfl)
    | stream => exact absurd hp id
    | maxStreams => split at ht <;> omega
    | streamsBlocked => split at ht <;> omega
    | _ => omega
  · by_cases h8 : 8 ≤ t ∧ t ≤ 15
    · cases h with
      | stream => exact absurd hp id
      | maxStreams => split at h8 <;> omega
      | streamsBlocked => split at h8 <;> omega
      | _ => omega
    · exact .std (h.notStream h8) h6 h8
theorem wire_parse {l : Bool} {f : Frame} {b : Bytes} (h : FrameWire l f b) (hp : Plain f) : Reads deserializeFrame b f := by
  intro s
  obtain ⟨t, body, hb, ht, rfl⟩ := h
  have : t = (BitVec.ofNat 64 t).toNat := by rw [BitVec.toNat_ofNat, Nat.mod_eq_of_lt (by omega)]
  have e : t % 256 = t := Nat.mod_eq_of_lt (by omega)
  have h2 := frame_complete (rest := s) (tb := [BitVec.ofNat 8 t]) (b := body) (f := f) (t := BitVec.ofNat 64 t)
    (by rw [← this]; exact isVarInt_one t ht) (by rw [← this, e]; exact wire_codeBody hb hp s)
  exact h2
theorem framesWire_parse {fs : List Frame} {b : Bytes} (h : FramesWire fs b) (hp : ∀ f ∈ fs, Plain f) :
    deserializeFrames (makeResultStream b) = (.ok fs, []) := by
  induction h with
  | nil => rfl
  | @cons f fs b bs hf _ ih =>
    have h1 := wire_parse hf (hp f List.mem_cons_self) (makeResultStream bs)
    have h2 := ih fun f hf => hp f (List.mem_cons_of_mem _ hf)
    rw [makeResultStream_append, deserializeFrames_eq]
    obtain ⟨t, body, _, _, rfl⟩ := hf
    simp only [makeResultStream_cons, List.cons_append] at h1 ⊢
    simp only [h1, h2]

theorem serialize_ok {fs : List Frame} (e : Bool) (h : ∀ f ∈ fs, WellFormed f) : ∃ bs, serializeFrames fs e = .ok bs := by
  induction fs with
  | nil => exact ⟨[], rfl⟩
  | cons f fs ih =>
    obtain ⟨b, hb⟩ := ih fun f hf => h f (List.mem_cons_of_mem _ hf)
    have hw := h f List.mem_cons_self
    rcases toBytes_okIff f (e && fs.isEmpty) (by rintro x rfl; exact hw.2.2.1) with ⟨a, ha, _⟩ | ⟨_, hn⟩
    · exact ⟨a ++ b, by rw [serializeFrames_cons, ha, hb]; rfl⟩
    · exfalso
      apply hn
      intro v hv
      refine hw.1 v ?_
      cases f with
      | stream x =>
        simp only [intFields] at hv ⊢
        rcases List.mem_append.mp hv with hv | hv
        · exact List.mem_append_left _ hv
        · refine List.mem_append_right _ ?_
          split at hv
          · exact hv
          · simp at hv
      | _ => exact hv

/-- C10. Every list of well-formed frames without STREAM, CRYPTO at offset 0: serializing succeeds and parsing gives the list back. -/
theorem C10_frames_round_trip (fs : List Frame) (e : Bool) (hw : ∀ f ∈ fs, WellFormed f) (hp : ∀ f ∈ fs, Plain f) :
    ∃ bs, serializeFrames fs e = .ok bs ∧ deserializeFrames (makeResultStream bs) = (.ok fs, []) := by
  obtain ⟨bs, h⟩ := serialize_ok e hw
  exact ⟨bs, h, framesWire_parse (serializeFrames_wire (fun f hf => (hw f hf).2) h) hp⟩

/-- Non-trivial instance: ACK with ranges and ECN, CRYPTO, NEW_CONNECTION_ID, CONNECTION_CLOSE, PADDING. -/
def exampleFrames : List Frame :=
  [.ack ⟨2000, 5, 2, 1, [⟨2, 2⟩, ⟨0, 70000⟩], some ⟨1, 2, 3⟩⟩, .crypto ⟨0, 3, [1, 2, 3]⟩,
   .newConnectionId ⟨4, 2, 8, .ofU64 0xdeadbeef, 0x1234⟩, .connectionClose ⟨10, some 6, 2, [0x68, 0x69], false⟩, .padding]
example : (∀ f ∈ exampleFrames, WellFormed f) ∧ (∀ f ∈ exampleFrames, Plain f) := by
  refine ⟨?_, ?_⟩
  · intro f hf
    simp only [exampleFrames, List.mem_cons, List.not_mem_nil, or_false] at hf
    rcases hf with rfl | rfl | rfl | rfl | rfl
    · exact by decide +kernel
    · exact by decide +kernel
    · decide +kernel
    · exact by decide +kernel
    · exact by decide +kernel
  · intro f hf
    simp only [exampleFrames, List.mem_cons, List.not_mem_nil, or_false] at hf
    rcases hf with rfl | rfl | rfl | rfl | rfl
    all_goals first | exact trivial | exact (rfl : (0 : U64) = 0)

/-! ## C11 -/

/-- C11, full statement. -/
def C11_statement : Prop := ∀ (x : FrameStream) (e : Bool) (bs : Bytes), WellFormed (.stream x) →
  serializeFrames [.stream x] e = .ok bs → deserializeFrames (makeResultStream bs) = (.ok [.stream x], [])

/-- C11 is false of the code, in the way packets serialize frames (with Length): every well-formed STREAM frame comes back with more data
than were sent (the encoded offset and length in front of it) and offset 0; and it swallows all frames after it. -/
theorem C11_stream_never_round_trips (x : FrameStream) (hw : WellFormed (.stream x)) (after : Bytes) :
    ∃ pre bs data, (Frame.stream x).toBytes false = .ok bs ∧ pre ≠ [] ∧ data = pre ++ x.streamData ++ after ∧
      deserializeFrames (makeResultStream (bs ++ after)) =
        (.ok [.stream ⟨x.streamId, 0, BitVec.ofNat 64 data.length, data, x.isFin⟩], []) ∧ x.streamData.length < data.length := by
  have hs : x.streamId.toNat < 2 ^ 62 := hw.1 _ (by simp [intFields])
  rcases toBytes_okIff (.stream x) false (by simp) with ⟨bs, hb, _⟩ | ⟨_, hn⟩
  case inr => exact absurd hw.1 hn
  obtain ⟨t, body, hbody, ht, rfl⟩ := toBytes_wire hw.2 hb
  generalize hx : Frame.stream x = f at hbody
  cases hbody with
  | padding | ping | handshakeDone | ack | ackEcn | resetStream | stopSending | crypto | newToken | maxData | maxStreamData | maxStreams
  | dataBlocked | streamDataBlocked | streamsBlocked | newConnectionId | retireConnectionId | pathChallenge | pathResponse
  | connectionCloseTransport | connectionCloseApp => cases hx
  | @stream y ho hl b1 b2 b3 h1 h2 h3 h4 =>
    injection hx with hx
    subst hx
    cases hl with
    | false => cases h3.2
    | true =>
      refine ⟨b2 ++ b3, _, b2 ++ b3 ++ x.streamData ++ after, hb, ?_, rfl, ?_, ?_⟩
      · have hpos := (show IsVarInt b3 _ from h3).length_pos
        intro h
        have := congrArg List.length h
        rw [List.length_append, List.length_nil] at this
        omega
      · obtain ⟨_, _, f3, f4, f5⟩ := streamFlags_nat ho true x.isFin
        generalize hT : 0x08 + (if ho then 4 else 0) + (if true = true then 2 else 0) + (if x.isFin then 1 else 0) = t at *
        have ht64 : (BitVec.ofNat 64 t).toNat = t := by rw [BitVec.toNat_ofNat, Nat.mod_eq_of_lt (by omega)]
        have hv := isVarInt_one t ht
        replace hv : IsVarInt [BitVec.ofNat 8 t] (BitVec.ofNat 64 t).toNat := by rw [ht64]; exact hv
        refine frames_complete ?_
        have hcb : CodeBody (.stream ⟨x.streamId, 0, BitVec.ofNat 64 (b2 ++ b3 ++ x.streamData ++ after).length,
            b2 ++ b3 ++ x.streamData ++ after, decide ((t % 256) % 2 = 1)⟩) (t % 256)
            (b1 ++ (b2 ++ b3 ++ x.streamData ++ after)) (makeResultStream []) := by
          rw [Nat.mod_eq_of_lt (by omega : t < 256)]
          exact .stream f4 f5 h1
        rw [Nat.mod_eq_of_lt (by omega : t < 256)] at hcb
        rw [f3] at hcb
        have := CodeFrames.cons (f := .stream ⟨x.streamId, 0, BitVec.ofNat 64 (b2 ++ b3 ++ x.streamData ++ after).length,
            b2 ++ b3 ++ x.streamData ++ after, x.isFin⟩) hv (by rw [ht64, Nat.mod_eq_of_lt (by omega : t < 256)]; exact hcb) CodeFrames.nil
        simpa using this
      · have := (show IsVarInt b3 _ from h3).length_pos
        simp
        omega

/-- C11 is false of the code even without Length field when the offset is not 0: the frame comes back with offset 0. -/
theorem C11_offset_lost (x : FrameStream) (ho : x.offset ≠ 0) (e : Bool) (bs : Bytes) (_h : serializeFrames [.stream x] e = .ok bs) :
    deserializeFrames (makeResultStream bs) ≠ (.ok [.stream x], []) := by
  intro hd
  obtain ⟨_, b, hb, hc⟩ := frames_iff.mp hd
  generalize hx : [Frame.stream x] = fs at hc
  cases hc with
  | nil => cases hx
  | @cons f fs tb body rest t h1 h2 h3 =>
    injection hx with hx _
    subst hx
    generalize hm : t.toNat % 256 = u at h2
    generalize hs : makeResultStream rest = q at h2
    cases h2 with
    | stream => exact ho rfl
    | std h _ h8 =>
      apply h8
      cases h true with
      | stream => exact ⟨(streamFlags_nat _ _ _).2.2.2.1, (streamFlags_nat _ _ _).2.2.2.2⟩

theorem C11_false : ¬ C11_statement := by
  intro h
  have hw : WellFormed (.stream ⟨1, 0, 1, [7], false⟩) := by decide +kernel
  have := h ⟨1, 0, 1, [7], false⟩ false [0x0a, 0x01, 0x01, 0x07] hw (by decide +kernel)
  revert this
  decide +kernel

/-- C11, what does hold: a STREAM frame at offset 0 that is last in its packet and serialized as such (without Length) round-trips, after
any list of plain frames. Missing: offsets other than 0 and frames with a Length field, where the code is wrong. -/
theorem C11_last_stream_round_trip_partial (fs : List Frame) (x : FrameStream) (hw : ∀ f ∈ fs, WellFormed f) (hp : ∀ f ∈ fs, Plain f)
    (hx : WellFormed (.stream x)) (h0 : x.offset = 0) :
    ∃ bs, serializeFrames (fs ++ [.stream x]) true = .ok bs ∧
      deserializeFrames (makeResultStream bs) = (.ok (fs ++ [.stream x]), []) := by
  induction fs with
  | nil =>
    obtain ⟨b1, hb1⟩ := encodeVarInt_ok x.streamId (hx.1 _ (by simp [intFields]))
    have h1 := encodeVarInt_isVarInt hb1
    rcases x with ⟨id, off, len, data, fin⟩
    have h0 : off = 0 := h0
    subst h0
    have hlen : BitVec.ofNat 64 data.length = len := by
      apply BitVec.eq_of_toNat_eq
      rw [BitVec.toNat_ofNat, ← show len.toNat = data.length from hx.2]; exact Nat.mod_eq_of_lt len.isLt
    have key : ∀ (t : U8) (b : Bool), 8 ≤ t.toNat → t.toNat ≤ 15 → decide (t.toNat % 2 = 1) = b →
        deserializeFrames (makeResultStream (t :: (b1 ++ data))) = (.ok [.stream ⟨id, 0, len, data, b⟩], []) := by
      intro t b ht1 ht2 hb
      have hv : IsVarInt [t] (t.setWidth 64).toNat := by
        rw [BitVec.toNat_setWidth, Nat.mod_eq_of_lt (by omega)]
        have := isVarInt_one t.toNat (by omega)
        rwa [BitVec.ofNat_toNat, BitVec.setWidth_eq] at this
      have ht : (t.setWidth 64).toNat % 256 = t.toNat := by
        rw [BitVec.toNat_setWidth]; omega
      have hcb : CodeBody (.stream ⟨id, 0, len, data, b⟩) ((t.setWidth 64).toNat % 256) (b1 ++ data) (makeResultStream []) := by
        rw [ht, ← hb, ← hlen]
        exact .stream ht1 ht2 h1
      have := frames_complete (CodeFrames.cons hv hcb CodeFrames.nil)
      simpa using this
    cases fin with
    | false =>
      refine ⟨0x08 :: (b1 ++ data), ?_, key 0x08 false (by decide) (by decide) (by decide)⟩
      simp [serializeFrames, Frame.toBytes, FrameStream.toBytes, hb1]
    | true =>
      refine ⟨0x09 :: (b1 ++ data), ?_, key 0x09 true (by decide) (by decide) (by decide)⟩
      simp [serializeFrames, Frame.toBytes, FrameStream.toBytes, hb1]
  | cons f fs ih =>
    obtain ⟨bs, h1, h2⟩ := ih (fun f hf => hw f (List.mem_cons_of_mem _ hf)) (fun f hf => hp f (List.mem_cons_of_mem _ hf))
    have hwf := hw f List.mem_cons_self
    have hpf := hp f List.mem_cons_self
    rcases toBytes_okIff f false (by rintro x rfl; exact hwf.2.2.1) with ⟨a, ha, _⟩ | ⟨_, hn⟩
    case inr => exact absurd hwf.1 hn
    refine ⟨a ++ bs, ?_, ?_⟩
    · rw [List.cons_append, serializeFrames_cons, h1]
      have : (true && (fs ++ [Frame.stream x]).isEmpty) = false := by simp
      rw [this, ha]
      rfl
    · have hw := toBytes_wire hwf.2 ha
      have h3 := wire_parse hw hpf (makeResultStream bs)
      rw [makeResultStream_append, deserializeFrames_eq]
      obtain ⟨t, body, _, _, rfl⟩ := hw
      simp only [makeResultStream_cons, List.cons_append] at h3 ⊢
      simp only [h3, h2]
example : WellFormed (.stream ⟨4, 0, 2, [7, 8], true⟩) ∧ (⟨4, 0, 2, [7, 8], true⟩ : FrameStream).offset = 0 :=
  ⟨by decide +kernel, rfl⟩

/-! ## C12 -/

/-- C12, full statement: a CRYPTO frame has exactly Length data bytes. -/
def C12_statement : Prop := ∀ (offset length : U64) (b1 b2 data rest : Bytes), IsVarInt b1 offset.toNat → IsVarInt b2 length.toNat →
  data.length = length.toNat → deserializeFrame (makeResultStream ([0x06] ++ b1 ++ b2 ++ data ++ rest)) =
    (.ok (.crypto ⟨offset, length, data⟩), makeResultStream rest)

/-- What the code does: it takes offset + Length bytes, and fails if they are not there. -/
theorem C12_crypto_takes_offset_too (offset length : U64) (b1 b2 after : Bytes) (h1 : IsVarInt b1 offset.toNat)
    (h2 : IsVarInt b2 length.toNat) :
    (offset.toNat + length.toNat ≤ after.length →
      deserializeFrame (makeResultStream ([0x06] ++ b1 ++ b2 ++ after)) =
        (.ok (.crypto ⟨offset, length, after.take (offset.toNat + length.toNat)⟩),
          makeResultStream (after.drop (offset.toNat + length.toNat)))) ∧
    (after.length < offset.toNat + length.toNat →
      (deserializeFrame (makeResultStream ([0x06] ++ b1 ++ b2 ++ after))).1.isErr = true) := by
  have hv : IsVarInt [0x06] (6 : U64).toNat := isVarInt_one 6 (by decide)
  constructor
  · intro hl
    have ht : (after.take (offset.toNat + length.toNat)).length = length.toNat + offset.toNat := by
      rw [List.length_take]; omega
    have := frame_complete (rest := makeResultStream (after.drop (offset.toNat + length.toNat))) hv
      (CodeBody.crypto (x := ⟨offset, length, after.take (offset.toNat + length.toNat)⟩) h1 h2 ht)
    rw [← makeResultStream_append, ← makeResultStream_append] at this
    simp only [List.append_assoc, List.take_append_drop] at this ⊢
    exact this
  · intro hl
    have hn := frame_noPanic (makeResultStream ([0x06] ++ b1 ++ b2 ++ after))
    rcases hd : deserializeFrame (makeResultStream ([0x06] ++ b1 ++ b2 ++ after)) with ⟨o, s'⟩
    rw [hd] at hn
    cases o with
    | err e => rfl
    | panic w => simp at hn
    | ok f =>
      exfalso
      unfold deserializeFrame at hd
      simp only [List.append_assoc, makeResultStream_append] at hd
      rw [Rd.bind_ok (varInt_reads hv _)] at hd
      have e6 : ((6 : U64) &&& (((1 : U64) <<< 8) - 1)).setWidth 8 = (6 : U8) := by decide
      rw [e6] at hd
      obtain ⟨x, s1, hx, _⟩ := Rd.bind_eq_ok (show (FrameCrypto.fromDatagram >>= fun x => pure (Frame.crypto x)) _ = _ from hd)
      unfold FrameCrypto.fromDatagram at hx
      rw [Rd.bind_ok (varInt_reads h1 _), Rd.bind_ok (varInt_reads h2 _)] at hx
      obtain ⟨d, s2, hd, _⟩ := Rd.bind_eq_ok hx
      obtain ⟨bs, e, rfl, hl2⟩ := varBytes_sound _ _ _ _ hd
      rw [crypto_total_no_overflow h2.lt h1.lt] at hl2
      have := congrArg List.length e
      simp at this
      omega

/-- C12 is false of the code for every offset other than 0: on the very bytes the crate writes for a CRYPTO frame, followed by anything,
the frame read is never the frame written (too many data bytes, or an error). -/
theorem C12_crypto_offset_broken (x : FrameCrypto) (hw : WellFormed (.crypto x)) (ho : x.offset ≠ 0) (rest : Bytes) :
    ∃ bs, (Frame.crypto x).toBytes false = .ok bs ∧
      (deserializeFrame (makeResultStream (bs ++ rest))).1 ≠ .ok (.crypto x) := by
  obtain ⟨b1, hb1⟩ := encodeVarInt_ok x.offset (hw.1 _ (by simp [intFields]))
  obtain ⟨b2, hb2⟩ := encodeVarInt_ok x.length (hw.1 _ (by simp [intFields]))
  have hc : x.length.toNat = x.cryptoData.length := hw.2
  have hne : x.offset.toNat ≠ 0 := fun h => ho (BitVec.eq_of_toNat_eq h)
  refine ⟨[0x06] ++ b1 ++ b2 ++ x.cryptoData, by simp [Frame.toBytes, FrameCrypto.toBytes, hb1, hb2], ?_⟩
  have := C12_crypto_takes_offset_too x.offset x.length b1 b2 (x.cryptoData ++ rest) (encodeVarInt_isVarInt hb1) (encodeVarInt_isVarInt hb2)
  rw [← List.append_assoc] at this
  intro h
  by_cases hl : x.offset.toNat + x.length.toNat ≤ (x.cryptoData ++ rest).length
  · rw [this.1 hl] at h
    injection h with h
    injection h with h
    have h := congrArg (fun y => y.cryptoData.length) h
    simp only [List.length_take] at h
    omega
  · have := this.2 (by omega)
    rw [h] at this
    cases this

theorem C12_false : ¬ C12_statement := by
  intro h
  have := h 1 1 [1] [1] [7] [] (isVarInt_one 1 (by decide)) (isVarInt_one 1 (by decide)) rfl
  revert this
  decide +kernel

/-- C12, what does hold: at offset 0 exactly Length bytes are taken and the rest is left. Missing: other offsets, where the code is wrong. -/
theorem C12_crypto_length_partial (length : U64) (b1 b2 data rest : Bytes) (h1 : IsVarInt b1 0) (h2 : IsVarInt b2 length.toNat)
    (hd : data.length = length.toNat) : deserializeFrame (makeResultStream ([0x06] ++ b1 ++ b2 ++ data ++ rest)) =
      (.ok (.crypto ⟨0, length, data⟩), makeResultStream rest) := by
  have := (C12_crypto_takes_offset_too 0 length b1 b2 (data ++ rest) h1 h2).1 (by simp; omega)
  have e : (0 : U64).toNat + length.toNat = data.length := by rw [hd]; exact Nat.zero_add _
  rw [e, List.take_left, List.drop_left, ← List.append_assoc] at this
  exact this
example : deserializeFrame (makeResultStream [0x06, 0x40, 0x00, 0x02, 0xaa, 0xbb, 0x01]) = (.ok (.crypto ⟨0, 2, [0xaa, 0xbb]⟩), [.ok 0x01]) := by
  decide +kernel

/-! ## C13, C14 -/

/-- C13. Parsing frames never panics, on any stream, also one that yields errors. That it terminates: the model is a total function which
satisfies the loop of the source, with no bound on iterations (`C13_loop`). -/
theorem C13_frames_total (s : Stream) :
    (∃ fs, (deserializeFrames s).1 = .ok fs) ∨ (∃ e, (deserializeFrames s).1 = .err e) := by
  have := frames_noPanic s
  rcases h : (deserializeFrames s).1 with fs | e | w
  · exact .inl ⟨fs, rfl⟩
  · exact .inr ⟨e, rfl⟩
  · rw [h] at this; simp at this
/-- C13: the `while let Some(_) = stream.peek()` loop of the source holds of the model literally, so the iteration bound used to define
the model is never met. -/
theorem C13_loop (s : Stream) : deserializeFrames s =
    match s with
    | [] => (.ok [], [])
    | s => match deserializeFrame s with
      | (.ok f, s') =>
        match deserializeFrames s' with
        | (.ok fs, s'') => (.ok (f :: fs), s'')
        | r => r
      | (.err e, s') => (.err e, s')
      | (.panic w, s') => (.panic w, s') := deserializeFrames_eq s
/-- C13: on any stream containing an error item, parsing all frames is an error. -/
theorem C13_stream_error (bs : Bytes) (e : Error) (s : Stream) :
    (deserializeFrames (makeResultStream bs ++ .error e :: s)).1.isErr = true := by
  rcases C13_frames_total (makeResultStream bs ++ .error e :: s) with ⟨fs, h⟩ | ⟨e', h⟩
  · exfalso
    obtain ⟨_, b, hb, _⟩ := frames_iff.mp (Prod.ext h rfl : deserializeFrames _ = (.ok fs, (deserializeFrames _).2))
    have hmem : (.error e : Except Error U8) ∈ makeResultStream b := by rw [← hb]; simp
    simp [makeResultStream] at hmem
  · rw [h]; rfl
example : (deserializeFrames [.ok 1, .error .noError]).1.isErr = true := by decide +kernel

/-- `pieces` cuts the payload into one non-empty piece per frame, each piece parses as its frame with the following pieces left over, and the
data in the frame are no longer than its piece. -/
def CutsInto : List Frame → List Bytes → Prop
  | [], [] => True
  | f :: fs, p :: ps => p ≠ [] ∧ dataLen f < p.length ∧
      deserializeFrame (makeResultStream (p ++ ps.flatten)) = (.ok f, makeResultStream ps.flatten) ∧ CutsInto fs ps
  | _, _ => False

theorem codeBody_dataLen {f : Frame} {t : Nat} {b : Bytes} {rest : Stream} (h : CodeBody f t b rest) : dataLen f ≤ b.length := by
  cases h with
  | crypto => simp [dataLen]; omega
  | stream => simp [dataLen]
  | std h _ _ => cases h true <;> simp [dataLen] <;> omega

/-- C14. A successful parse consumed everything, each frame took its own non-empty piece, in order; so there are at most as many frames, and
at most as much decoded data, as bytes. -/
theorem C14_payload_consumed (s s' : Stream) (fs : List Frame) (h : deserializeFrames s = (.ok fs, s')) :
    s' = [] ∧ ∃ pieces, s = makeResultStream pieces.flatten ∧ CutsInto fs pieces ∧
      fs.length + (fs.map dataLen).sum ≤ s.length := by
  obtain ⟨rfl, bs, rfl, hc⟩ := frames_iff.mp h
  refine ⟨rfl, ?_⟩
  clear h
  induction hc with
  | nil => exact ⟨[], rfl, trivial, by simp⟩
  | @cons f fs tb b bs t ht hb _ ih =>
    obtain ⟨ps, e, hcut, hlen⟩ := ih
    have := makeResultStream_inj e
    subst this
    have hp := ht.length_pos
    have hd := codeBody_dataLen hb
    refine ⟨(tb ++ b) :: ps, by simp, ⟨?_, ?_, ?_, hcut⟩, ?_⟩
    · intro h
      have := congrArg List.length h
      rw [List.length_append, List.length_nil] at this; omega
    · rw [List.length_append]; omega
    · have := frame_complete ht hb
      simpa using this
    · simp only [makeResultStream_length, List.length_append, List.length_cons, List.map_cons, List.sum_cons] at hlen ⊢; omega
example : deserializeFrames (makeResultStream [0x01, 0x06, 0x00, 0x01, 0x07, 0x00]) =
    (.ok [.ping, .crypto ⟨0, 1, [7]⟩, .padding], []) := by decide +kernel

/-! ## C15 -/

/-- C15, full statement. -/
def C15_statement : Prop := ∀ (tb : Bytes) (t : Nat) (s : Stream), IsVarInt tb t → 0x1e < t →
  (deserializeFrame (makeResultStream tb ++ s)).1.isErr = true

/-- C15 is false of the code: every type acts as its value modulo 256, for any encodings of the two and any following bytes. -/
theorem C15_types_alias (tb tb' : Bytes) (t : Nat) (s : Stream) (h : IsVarInt tb t) (h' : IsVarInt tb' (t % 256)) :
    deserializeFrame (makeResultStream tb ++ s) = deserializeFrame (makeResultStream tb' ++ s) := by
  have e1 : (BitVec.ofNat 64 t).toNat = t := by
    rw [BitVec.toNat_ofNat]; exact Nat.mod_eq_of_lt (Nat.lt_trans h.lt (by decide))
  have e2 : (BitVec.ofNat 64 (t % 256)).toNat = t % 256 := by
    rw [BitVec.toNat_ofNat]; exact Nat.mod_eq_of_lt (Nat.lt_trans h'.lt (by decide))
  unfold deserializeFrame
  rw [Rd.bind_ok (varInt_reads (by rw [e1]; exact h) _), Rd.bind_ok (varInt_reads (by rw [e2]; exact h') _)]
  congr 1
  apply BitVec.eq_of_toNat_eq
  rw [type_mask, type_mask, e1, e2, Nat.mod_mod]

theorem C15_false : ¬ C15_statement := by
  intro h
  have := h [0x41, 0x01] 0x101 [] ⟨1, by decide +kernel⟩ (by decide)
  revert this
  decide +kernel

/-- C15, what does hold: a type whose value modulo 256 is above 0x1e is rejected with an error whatever follows; in particular every unknown
type below 256. Missing: larger types congruent to a known one, where the code is wrong (`C15_types_alias`). -/
theorem C15_unknown_rejected_partial (tb : Bytes) (t : Nat) (s : Stream) (h : IsVarInt tb t) (ht : 0x1e < t % 256) :
    deserializeFrame (makeResultStream tb ++ s) = (.err (.internalError "Invalid type byte"), s) := by
  have e1 : (BitVec.ofNat 64 t).toNat = t := by
    rw [BitVec.toNat_ofNat]; exact Nat.mod_eq_of_lt (Nat.lt_trans h.lt (by decide))
  unfold deserializeFrame
  rw [Rd.bind_ok (varInt_reads (by rw [e1]; exact h) _), body_invalid _ (by rw [type_mask, e1]; exact ht)]
  rfl
example : deserializeFrame (makeResultStream [0x40, 0xff, 1]) = (.err (.internalError "Invalid type byte"), [.ok 1]) := by decide +kernel
/-- C15 for whole payloads: a payload with such a type after any frames that parse is an error as a whole, none of its frames is returned.
Missing for the full statement: types above 255 that act as a known one modulo 256, for which it is false (`C15_types_alias`). -/
theorem C15_payload_rejected_partial (fs : List Frame) (bs tb : Bytes) (t : Nat) (s : Stream) (hw : FramesWire fs bs) (hp : ∀ f ∈ fs, Plain f)
    (h : IsVarInt tb t) (ht : 0x1e < t % 256) :
    deserializeFrames (makeResultStream (bs ++ tb) ++ s) = (.err (.internalError "Invalid type byte"), s) := by
  induction hw with
  | nil =>
    have hl := h.length_pos
    rw [deserializeFrames_eq]
    have h1 := C15_unknown_rejected_partial tb t s h ht
    cases tb with
    | nil => simp at hl
    | cons x tb =>
      simp only [List.nil_append, makeResultStream, List.map_cons, List.cons_append] at h1 ⊢
      rw [h1]
  | @cons f fs b bs hb hbs ih =>
    have h1 := wire_parse hb (hp f (by simp)) (makeResultStream (bs ++ tb) ++ s)
    have h2 := ih (fun g hg => hp g (by simp [hg]))
    have hl : b ≠ [] := by
      intro hb0
      subst hb0
      obtain ⟨t', body, -, -, e⟩ := hb
      simp at e
    rw [deserializeFrames_eq]
    have e : makeResultStream (b ++ bs ++ tb) ++ s = makeResultStream b ++ (makeResultStream (bs ++ tb) ++ s) := by simp [makeResultStream]
    rw [e]
    cases b with
    | nil => exact absurd rfl hl
    | cons x b =>
      simp only [makeResultStream, List.map_cons, List.cons_append] at h1 h2 ⊢
      simp only [h1, h2]
example : deserializeFrames (makeResultStream [0x01, 0x06, 0x00, 0x01, 0x07, 0x40, 0xff, 1]) = (.err (.internalError "Invalid type byte"), [.ok 1]) := by
  decide +kernel

/-! ## C16-C18 -/

/-- C16. What is written for a frame with consistent redundant fields is its RFC 9000 section 19 encoding; `e` is whether it is written as last frame of the datagram. -/
theorem C16_frame_layout (f : Frame) (e : Bool) (bs : Bytes) (hc : Consistent f) (h : f.toBytes e = .ok bs) : FrameWire e f bs :=
  toBytes_wire hc h
/-- C16 for whole payloads. -/
theorem C16_payload_layout (fs : List Frame) (e : Bool) (bs : Bytes) (hc : ∀ f ∈ fs, Consistent f) (h : serializeFrames fs e = .ok bs) :
    FramesWire fs bs := serializeFrames_wire hc h
example : ∃ bs, serializeFrames [.stream ⟨4, 9, 2, [7, 8], true⟩, .stream ⟨4, 0, 1, [7], false⟩] true = .ok bs ∧
    bs = [0x0f, 4, 9, 2, 7, 8, 0x08, 4, 7] := ⟨_, by decide +kernel, rfl⟩

/-- C17, full statement: the parser accepts exactly the RFC 9000 encodings of frames. -/
def C17_statement : Prop :=
  (∀ l f bs (s : Stream), FrameWire l f bs → (l = true → s = []) → deserializeFrame (makeResultStream bs ++ s) = (.ok f, s)) ∧
  (∀ f (s s' : Stream), deserializeFrame s = (.ok f, s') → ∃ bs, s = makeResultStream bs ++ s' ∧ FrameWireAnyType s'.isEmpty f bs)

theorem C17_false : ¬ C17_statement := by
  intro h
  have h1 := h.1 false (.crypto ⟨1, 1, [7]⟩) [0x06, 0x01, 0x01, 0x07] []
    ⟨6, [0x01, 0x01, 0x07], FrameBody.crypto (x := ⟨1, 1, [7]⟩) (b1 := [1]) (b2 := [1]) (isVarInt_one 1 (by decide)) (isVarInt_one 1 (by decide)) rfl,
      by decide, rfl⟩ (by simp)
  revert h1
  decide +kernel

/-- C17, what does hold, completeness: every RFC 9000 encoding (any integer widths) of a frame that is not STREAM and not CRYPTO at an
offset other than 0 parses as that frame, whatever follows. Missing: STREAM, CRYPTO with offset, where the code is wrong
(`C11_stream_never_round_trips`, `C12_crypto_takes_offset_too`). -/
theorem C17_parses_rfc_partial (l : Bool) (f : Frame) (bs : Bytes) (s : Stream) (h : FrameWire l f bs) (hp : Plain f) :
    deserializeFrame (makeResultStream bs ++ s) = (.ok f, s) := wire_parse h hp s
/-- C17, what does hold, soundness: a successful parse of such a frame consumed an encoding of the frame returned, the type being one of
RFC 9000's modulo 256. Missing: types of 256 and more (`C15_types_alias`), STREAM, CRYPTO with offset. -/
theorem C17_parse_sound_partial (f : Frame) (s s' : Stream) (h : deserializeFrame s = (.ok f, s')) (hp : Plain f) :
    ∃ t tb body l, s = makeResultStream (tb ++ body) ++ s' ∧ IsVarInt tb t ∧ FrameBody l f (t % 256) body := by
  obtain ⟨t, tb, b, e, ht, hb⟩ := frame_sound h
  have key : FrameBody true f (t.toNat % 256) b := by
    generalize t.toNat % 256 = u at hb
    cases hb with
    | std h _ _ => exact h true
    | stream => exact absurd hp id
    | crypto h1 h2 h3 =>
      have hp : _ = (0 : U64) := hp
      exact .crypto h1 h2 (by rw [h3, hp]; rfl)
  exact ⟨t.toNat, tb, b, true, by rw [e]; simp, ht, key⟩
/-- With a type below 256 this is exactly RFC 9000 (type in any variable-length encoding).
Missing for the full statement: STREAM, and CRYPTO at an offset, for which it is false (`C17_false`). -/
theorem C17_parse_sound_small_type_partial (f : Frame) (tb : Bytes) (t : Nat) (s s' : Stream) (ht : IsVarInt tb t) (h256 : t < 256)
    (h : deserializeFrame (makeResultStream tb ++ s) = (.ok f, s')) (hp : Plain f) :
    ∃ body, s = makeResultStream body ++ s' ∧ FrameBody s'.isEmpty f t body := by
  have e1 : (BitVec.ofNat 64 t).toNat = t := by
    rw [BitVec.toNat_ofNat]; exact Nat.mod_eq_of_lt (Nat.lt_trans ht.lt (by decide))
  unfold deserializeFrame at h
  rw [Rd.bind_ok (varInt_reads (by rw [e1]; exact ht) _)] at h
  obtain ⟨b, e, hb⟩ := codeBody_sound h
  rw [type_mask, e1, Nat.mod_eq_of_lt h256] at hb
  refine ⟨b, e, ?_⟩
  cases hb with
  | std h _ _ => exact h _
  | stream => exact absurd hp id
  | crypto h1 h2 h3 =>
    have hp : _ = (0 : U64) := hp
    exact .crypto h1 h2 (by rw [h3, hp]; rfl)
/-- The parser characterised exactly, on every stream, for every frame including STREAM and CRYPTO: `CodeBody` is the RFC 9000 grammar except
that CRYPTO takes offset + Length bytes and STREAM ignores its offset and length bits. -/
theorem C17_parser_exact (f : Frame) (s s' : Stream) : deserializeFrame s = (.ok f, s') ↔
    ∃ (t : U64) (tb b : Bytes), s = makeResultStream tb ++ (makeResultStream b ++ s') ∧ IsVarInt tb t.toNat ∧
      CodeBody f (t.toNat % 256) b s' := by
  constructor
  · exact frame_sound
  · rintro ⟨t, tb, b, rfl, ht, hb⟩; exact frame_complete ht hb
example : FrameWire false (.maxData ⟨5⟩) [0x10, 0x40, 0x05] ∧ Plain (.maxData ⟨5⟩) :=
  ⟨⟨0x10, [0x40, 0x05], .maxData ⟨1, by decide +kernel⟩, by decide, rfl⟩, trivial⟩

/-- C18. Serializing a frame (its connection id, if it has one, of length at most 20) succeeds exactly if every integer field is below 2^62; otherwise it is the overflow error, never a panic. `e` true drops the Length of a STREAM frame. -/
theorem C18_serialize_fails_iff (f : Frame) (e : Bool) (hcid : ∀ x, f = .newConnectionId x → x.length.toNat ≤ 20) :
    ((f.toBytes e).isOk = true ↔ ∀ v ∈ intFields (!e) f, v.toNat < 2 ^ 62) ∧
    ((f.toBytes e).isErr = true ↔ ∃ v ∈ intFields (!e) f, 2 ^ 62 ≤ v.toNat) ∧ (f.toBytes e).isPanic = false := by
  rcases toBytes_okIff f e hcid with ⟨b, hb, h⟩ | ⟨hb, h⟩
  · rw [hb]
    refine ⟨⟨fun _ => h, fun _ => rfl⟩, ?_, rfl⟩
    simp only [Out.isErr_ok, Bool.false_eq_true, false_iff]
    rintro ⟨v, hv, hle⟩
    exact absurd (h v hv) (Nat.not_lt.mpr hle)
  · rw [hb]
    refine ⟨?_, ?_, rfl⟩
    · simp only [Out.isOk_err, Bool.false_eq_true, false_iff]; exact h
    · simp only [Out.isErr_err, true_iff]
      refine Classical.byContradiction fun hn => h ?_
      intro v hv
      exact Nat.not_le.mp fun hle => hn ⟨v, hv, hle⟩
/-- C18: a longer connection id panics (if the integer fields are fine). -/
theorem C18_long_cid_panics (x : FrameNewConnectionId) (e : Bool) (hlen : 20 < x.length.toNat)
    (h1 : x.sequenceNumber.toNat < 2 ^ 62) (h2 : x.retirePriorTo.toNat < 2 ^ 62) : ((Frame.newConnectionId x).toBytes e).isPanic = true := by
  obtain ⟨b1, hb1⟩ := encodeVarInt_ok _ h1
  obtain ⟨b2, hb2⟩ := encodeVarInt_ok _ h2
  have := toVarBytes_panic x.connectionId x.length.toNat hlen
  cases hv : x.connectionId.toVarBytes x.length.toNat with
  | ok a => rw [hv] at this; cases this
  | err e => rw [hv] at this; cases this
  | panic w => simp [Frame.toBytes, FrameNewConnectionId.toBytes, hb1, hb2, hv]
example : ((Frame.ack ⟨1, 2, 1, 0, [⟨0, 0x4000000000000000⟩], none⟩).toBytes false).isErr = true := by decide +kernel

/-! ## C19 -/

theorem ranges_ints {rs : List AckRange} {b} (h : Spec.AckRangesWire rs b) :
    ∀ v ∈ rs.flatMap fun r => [r.gap, r.ackRangeLength], v.toNat < 2 ^ 62 := by
  induction h with
  | nil => simp
  | cons h1 h2 _ ih =>
    intro v hv
    simp only [List.flatMap_cons, List.mem_append, List.mem_cons, List.not_mem_nil, or_false] at hv
    rcases hv with (rfl | rfl) | hv
    · exact h1.lt
    · exact h2.lt
    · exact ih v hv

/-- An RFC 9000 encoding is of a well-formed frame (a STREAM frame without Length can be longer than its Length could say). -/
theorem frameBody_wf {l : Bool} {f : Frame} {t : Nat} {b : Bytes} (h : FrameBody l f t b) (h8 : ¬ (8 ≤ t ∧ t ≤ 15)) : WellFormed f := by
  unfold WellFormed IntsFit
  cases h with
  | padding | ping | handshakeDone | pathChallenge | pathResponse => exact ⟨by simp [intFields], trivial⟩
  | ack h1 h2 h3 h4 h5 hc he =>
    refine ⟨?_, hc⟩
    simp only [intFields, he, List.append_nil]
    intro v hv
    rcases List.mem_append.mp hv with hv | hv
    · simp only [List.mem_cons, List.not_mem_nil, or_false] at hv
      rcases hv with rfl | rfl | rfl | rfl
      · exact h1.lt
      · exact h2.lt
      · exact h3.lt
      · exact h4.lt
    · exact ranges_ints h5 v hv
  | ackEcn h1 h2 h3 h4 h5 h6 hc he =>
    refine ⟨?_, hc⟩
    obtain ⟨_, _, _, e1, e2, e3, rfl⟩ := h6
    simp only [intFields, he]
    intro v hv
    rcases List.mem_append.mp hv with hv | hv
    · rcases List.mem_append.mp hv with hv | hv
      · simp only [List.mem_cons, List.not_mem_nil, or_false] at hv
        rcases hv with rfl | rfl | rfl | rfl
        · exact h1.lt
        · exact h2.lt
        · exact h3.lt
        · exact h4.lt
      · exact ranges_ints h5 v hv
    · simp only [List.mem_cons, List.not_mem_nil, or_false] at hv
      rcases hv with rfl | rfl | rfl
      · exact e1.lt
      · exact e2.lt
      · exact e3.lt
  | resetStream h1 h2 h3 => exact ⟨by simp [intFields]; exact ⟨h1.lt, h2.lt, h3.lt⟩, trivial⟩
  | stopSending h1 h2 => exact ⟨by simp [intFields]; exact ⟨h1.lt, h2.lt⟩, trivial⟩
  | crypto h1 h2 h3 => exact ⟨by simp [intFields]; exact ⟨h1.lt, h2.lt⟩, h3.symm⟩
  | newToken h1 h2 => exact ⟨by simp [intFields]; exact h1.lt, h2.symm⟩
  | stream => exact absurd ⟨(streamFlags_nat _ _ _).2.2.2.1, (streamFlags_nat _ _ _).2.2.2.2⟩ h8
  | maxData h1 => exact ⟨by simp [intFields]; exact h1.lt, trivial⟩
  | maxStreamData h1 h2 => exact ⟨by simp [intFields]; exact ⟨h1.lt, h2.lt⟩, trivial⟩
  | maxStreams h1 => exact ⟨by simp [intFields]; exact h1.lt, trivial⟩
  | dataBlocked h1 => exact ⟨by simp [intFields]; exact h1.lt, trivial⟩
  | streamDataBlocked h1 h2 => exact ⟨by simp [intFields]; exact ⟨h1.lt, h2.lt⟩, trivial⟩
  | streamsBlocked h1 => exact ⟨by simp [intFields]; exact h1.lt, trivial⟩
  | newConnectionId h1 h2 h3 h4 h5 h6 h7 h9 =>
    refine ⟨by simp [intFields]; exact ⟨h1.lt, h2.lt⟩, h3, h4, ?_⟩
    rw [← h6, ← h5]
    exact beNat_lt _
  | retireConnectionId h1 => exact ⟨by simp [intFields]; exact h1.lt, trivial⟩
  | connectionCloseTransport h1 h2 h3 h4 h5 h6 =>
    exact ⟨by simp [intFields, h2]; exact ⟨h1.lt, h4.lt, h3.lt⟩, h5.symm, by simp [h2, h6]⟩
  | connectionCloseApp h1 h2 h4 h5 h6 =>
    exact ⟨by simp [intFields, h2]; exact ⟨h1.lt, h4.lt⟩, h5.symm, by simp [h2, h6]⟩

/-- C19, full statement (on payloads below 2^62 bytes). -/
def C19_statement : Prop := ∀ (s s' : Stream) (fs : List Frame), s.length < 2 ^ 62 → deserializeFrames s = (.ok fs, s') →
  ∀ f ∈ fs, WellFormed f

theorem C19_false : ¬ C19_statement := by
  intro h
  have := (h (makeResultStream [0x06, 0x01, 0x00, 0x07]) [] [.crypto ⟨1, 0, [7]⟩] (by decide) (by decide +kernel) _ List.mem_cons_self).2
  revert this
  decide

/-- What the parser returns, frame by frame. -/
theorem codeFrames_wf {fs : List Frame} {b : Bytes} (h : CodeFrames fs b) (hb : b.length < 2 ^ 62) :
    ∀ f ∈ fs, IntsFit true f ∧ (Consistent f ∨ ∃ x, f = .crypto x ∧ x.cryptoData.length = x.length.toNat + x.offset.toNat ∧ x.offset ≠ 0) := by
  induction h with
  | nil => simp
  | @cons f fs tb b bs t ht hcb _ ih =>
    intro g hg
    simp only [List.length_append] at hb
    rcases List.mem_cons.mp hg with rfl | hg
    · generalize t.toNat % 256 = u at hcb
      generalize makeResultStream bs = q at hcb
      cases hcb with
      | std h _ h8 =>
        have := frameBody_wf (h true) h8
        exact ⟨this.1, .inl this.2⟩
      | @crypto x b1 b2 _ h1 h2 h3 =>
        refine ⟨by unfold IntsFit; simp [intFields]; exact ⟨h1.lt, h2.lt⟩, ?_⟩
        by_cases ho : x.offset = 0
        · refine .inl ?_
          show _ = _
          rw [h3, ho]; rfl
        · exact .inr ⟨x, rfl, h3, ho⟩
      | @stream id data _ b1 _ _ h1 =>
        simp only [List.length_append] at hb
        have e : (BitVec.ofNat 64 data.length).toNat = data.length := by
          rw [BitVec.toNat_ofNat]; exact Nat.mod_eq_of_lt (by omega)
        refine ⟨?_, .inl e⟩
        unfold IntsFit
        intro v hv
        simp only [intFields, if_true, List.cons_append, List.nil_append, List.mem_cons, List.not_mem_nil, or_false] at hv
        rcases hv with rfl | rfl | rfl
        · exact h1.lt
        · decide
        · rw [e]
          show data.length < 2 ^ 62
          omega
    · exact ih (by omega) g hg

/-- C19, what does hold: everything but the data length of CRYPTO frames at offsets other than 0 (there the data are Length + offset bytes,
where the code is wrong). The bound on the payload is 2^62 bytes.
Missing for the full statement: those frames, for which it is false (`C19_false`). -/
theorem C19_parsed_well_formed_partial (s s' : Stream) (fs : List Frame) (hs : s.length < 2 ^ 62) (h : deserializeFrames s = (.ok fs, s')) :
    ∀ f ∈ fs, (∀ v ∈ intFields true f, v.toNat < 2 ^ 62) ∧ (Consistent f ∨ ∃ x, f = .crypto x ∧ x.offset ≠ 0) := by
  obtain ⟨_, bs, rfl, hc⟩ := frames_iff.mp h
  intro f hf
  have := codeFrames_wf hc (by simpa using hs) f hf
  refine ⟨this.1, ?_⟩
  rcases this.2 with h | ⟨x, h1, _, h3⟩
  · exact .inl h
  · exact .inr ⟨x, h1, h3⟩
/-- C19: what was parsed can always be serialized again. -/
theorem C19_reserializable (s s' : Stream) (fs : List Frame) (e : Bool) (hs : s.length < 2 ^ 62) (h : deserializeFrames s = (.ok fs, s')) :
    ∃ bs, serializeFrames fs e = .ok bs := by
  obtain ⟨_, bs, rfl, hc⟩ := frames_iff.mp h
  have hwf := codeFrames_wf hc (by simpa using hs)
  clear h hc
  induction fs with
  | nil => exact ⟨[], rfl⟩
  | cons f fs ih =>
    obtain ⟨b, hb⟩ := ih fun f hf => hwf f (List.mem_cons_of_mem _ hf)
    have hw := hwf f List.mem_cons_self
    have hcid : ∀ x, f = .newConnectionId x → x.length.toNat ≤ 20 := by
      rintro x rfl
      rcases hw.2 with h | ⟨y, h, _⟩
      · exact h.2.1
      · cases h
    have hfit : IntsFit (!(e && fs.isEmpty)) f := by
      intro v hv
      refine hw.1 v ?_
      cases f with
      | stream x =>
        simp only [intFields] at hv ⊢
        rcases List.mem_append.mp hv with hv | hv
        · exact List.mem_append_left _ hv
        · refine List.mem_append_right _ ?_
          split at hv
          · exact hv
          · simp at hv
      | _ => exact hv
    rcases toBytes_okIff f (e && fs.isEmpty) hcid with ⟨a, ha, _⟩ | ⟨_, hn⟩
    · exact ⟨a ++ b, by rw [serializeFrames_cons, ha, hb]; rfl⟩
    · exact absurd hfit hn
/-- C19: re-encoding is canonical: parse, serialize, parse gives the same frames (no STREAM, CRYPTO at offset 0).
Missing for the full statement: those frames. -/
theorem C19_canonical_partial (s s' : Stream) (fs : List Frame) (e : Bool) (hs : s.length < 2 ^ 62) (h : deserializeFrames s = (.ok fs, s'))
    (hp : ∀ f ∈ fs, Plain f) : ∃ bs, serializeFrames fs e = .ok bs ∧ deserializeFrames (makeResultStream bs) = (.ok fs, []) := by
  refine C10_frames_round_trip fs e (fun f hf => ?_) hp
  have := C19_parsed_well_formed_partial s s' fs hs h f hf
  refine ⟨this.1, ?_⟩
  rcases this.2 with hc | ⟨x, rfl, ho⟩
  · exact hc
  · exact absurd (hp _ hf) ho
example : deserializeFrames (makeResultStream [0x10, 0x40, 0x05]) = (.ok [.maxData ⟨5⟩], []) := by decide +kernel

/-! ## C20 -/

/-- C20, composition: serializing two lists one after the other is concatenation; only the very last frame is serialized as the end of the datagram. -/
theorem C20_serialize_append (fs gs : List Frame) (e : Bool) :
    serializeFrames (fs ++ gs) e = (do
      let a ← serializeFrames fs (e && gs.isEmpty)
      let b ← serializeFrames gs e
      pure (a ++ b)) := by
  induction fs with
  | nil => cases h : serializeFrames gs e <;> simp [serializeFrames, h]
  | cons f fs ih =>
    rw [List.cons_append, serializeFrames_cons, serializeFrames_cons, ih]
    have : (e && (fs ++ gs).isEmpty) = (e && gs.isEmpty && fs.isEmpty) := by
      cases e <;> cases fs <;> cases gs <;> rfl
    rw [this]
    cases Frame.toBytes (e && gs.isEmpty && fs.isEmpty) f <;> simp
    cases serializeFrames fs (e && gs.isEmpty) <;> simp
    cases serializeFrames gs e <;> simp
/-- C20, unambiguity: lists of consistent frames (STREAM included) with the same serialization are equal, whichever way either was serialized. -/
theorem C20_serialize_injective (fs gs : List Frame) (e e' : Bool) (bs : Bytes) (hf : ∀ f ∈ fs, Consistent f) (hg : ∀ f ∈ gs, Consistent f)
    (h1 : serializeFrames fs e = .ok bs) (h2 : serializeFrames gs e' = .ok bs) : fs = gs :=
  framesWire_unique (serializeFrames_wire hf h1) (serializeFrames_wire hg h2)
/-- C20, at the level of RFC 9000: a payload has at most one reading as a list of frames. -/
theorem C20_grammar_unambiguous (fs gs : List Frame) (bs : Bytes) (h1 : FramesWire fs bs) (h2 : FramesWire gs bs) : fs = gs :=
  framesWire_unique h1 h2
/-- Consistency is needed: with a wrong length field two different frames share bytes. -/
example : serializeFrames [.newToken ⟨0, [0x01]⟩] false = serializeFrames [.newToken ⟨0, []⟩, .ping] false := by decide +kernel
example : (∀ f ∈ exampleFrames, Consistent f) := by decide +kernel

/-! ## C21 -/

/-- C21, accepted: length byte 1..20, that many bytes, 16 bytes of token. -/
theorem C21_accepts (b1 b2 cid tok : Bytes) (len : U8) (seq ret : U64) (s : Stream) (h1 : IsVarInt b1 seq.toNat) (h2 : IsVarInt b2 ret.toNat)
    (hl : 1 ≤ len.toNat) (hl' : len.toNat ≤ 20) (hc : cid.length = len.toNat) (ht : tok.length = 16) :
    ∃ c k, deserializeFrame (makeResultStream ([0x18] ++ b1 ++ b2 ++ [len] ++ cid ++ tok) ++ s) =
      (.ok (.newConnectionId ⟨seq, ret, len, c, k⟩), s) ∧ cidVal c = beNat cid ∧ k.toNat = beNat tok := by
  have e1 := cidVal_read cid (by omega)
  have e2 : (BitVec.ofNat 128 (beNat tok)).toNat = beNat tok := by
    rw [BitVec.toNat_ofNat]
    refine Nat.mod_eq_of_lt ?_
    have := beNat_lt tok
    rw [ht] at this
    exact this
  refine ⟨_, _, ?_, e1, e2⟩
  have := wire_parse (l := false) (f := .newConnectionId ⟨seq, ret, len, cid.foldl u160Step ⟨0, 0⟩, BitVec.ofNat 128 (beNat tok)⟩)
    ⟨0x18, _, .newConnectionId h1 h2 hl hl' hc e1.symm ht e2.symm, by decide, rfl⟩ trivial s
  simpa using this
/-- C21, rejected: any other length byte, whatever follows. -/
theorem C21_rejects_length (b1 b2 : Bytes) (len : U8) (seq ret : U64) (s : Stream) (h1 : IsVarInt b1 seq.toNat) (h2 : IsVarInt b2 ret.toNat)
    (hl : len.toNat = 0 ∨ 20 < len.toNat) :
    deserializeFrame (makeResultStream ([0x18] ++ b1 ++ b2 ++ [len]) ++ s) =
      (.err (.internalError "invalid connection id length"), s) := by
  have hv : IsVarInt [0x18] (0x18 : U64).toNat := isVarInt_one 0x18 (by decide)
  unfold deserializeFrame
  simp only [makeResultStream_append, List.append_assoc]
  rw [Rd.bind_ok (varInt_reads hv _)]
  have e6 : ((0x18 : U64) &&& (((1 : U64) <<< 8) - 1)).setWidth 8 = (0x18 : U8) := by decide
  rw [e6]
  refine (Rd.bind_err (m := FrameNewConnectionId.fromDatagram) ?_ : _)
  unfold FrameNewConnectionId.fromDatagram
  rw [Rd.bind_ok (varInt_reads h1 _), Rd.bind_ok (varInt_reads h2 _), Rd.bind_ok (u8_reads _ _), if_pos (by omega)]
  rfl
/-- C21, conversely: whenever a NEW_CONNECTION_ID frame comes out of the parser, its length is 1..20, and the id and the token were there in full. -/
theorem C21_only_complete (s s' : Stream) (x : FrameNewConnectionId) (h : deserializeFrame s = (.ok (.newConnectionId x), s')) :
    ∃ pre cid tok, s = makeResultStream (pre ++ [x.length] ++ cid ++ tok) ++ s' ∧ 1 ≤ x.length.toNat ∧ x.length.toNat ≤ 20 ∧
      cid.length = x.length.toNat ∧ beNat cid = cidVal x.connectionId ∧ tok.length = 16 ∧ beNat tok = x.statelessResetToken.toNat := by
  obtain ⟨t, tb, body, l, e, _, hb⟩ := C17_parse_sound_partial _ _ _ h trivial
  generalize t % 256 = u at hb
  cases hb with
  | @newConnectionId _ b1 b2 b3 b4 h1 h2 h3 h4 h5 h6 h7 h8 =>
    exact ⟨tb ++ b1 ++ b2, b3, b4, by rw [e]; simp [List.append_assoc], h3, h4, h5, h6, h7, h8⟩
/-- C21: the rest missing, it is an error. -/
theorem C21_rejects_truncated (b1 b2 : Bytes) (len : U8) (seq ret : U64) (bs : Bytes) (h1 : IsVarInt b1 seq.toNat)
    (h2 : IsVarInt b2 ret.toNat) (hl : bs.length < len.toNat + 16) :
    (deserializeFrame (makeResultStream ([0x18] ++ b1 ++ b2 ++ [len] ++ bs))).1.isErr = true := by
  have hn := frame_noPanic (makeResultStream ([0x18] ++ b1 ++ b2 ++ [len] ++ bs))
  rcases hd : deserializeFrame (makeResultStream ([0x18] ++ b1 ++ b2 ++ [len] ++ bs)) with ⟨o, s'⟩
  rw [hd] at hn
  cases o with
  | err e => rfl
  | panic w => simp at hn
  | ok f =>
    exfalso
    have hv : IsVarInt [0x18] (0x18 : U64).toNat := isVarInt_one 0x18 (by decide)
    unfold deserializeFrame at hd
    simp only [makeResultStream_append, List.append_assoc] at hd
    rw [Rd.bind_ok (varInt_reads hv _)] at hd
    have e6 : ((0x18 : U64) &&& (((1 : U64) <<< 8) - 1)).setWidth 8 = (0x18 : U8) := by decide
    rw [e6] at hd
    obtain ⟨x, s1, hx, _⟩ := Rd.bind_eq_ok (show (FrameNewConnectionId.fromDatagram >>= fun x => pure (Frame.newConnectionId x)) _ = _ from hd)
    unfold FrameNewConnectionId.fromDatagram at hx
    rw [Rd.bind_ok (varInt_reads h1 _), Rd.bind_ok (varInt_reads h2 _), Rd.bind_ok (u8_reads _ _)] at hx
    split at hx
    · cases hx
    · obtain ⟨c, s2, hc, hx⟩ := Rd.bind_eq_ok hx
      obtain ⟨k, s3, hk, hx⟩ := Rd.bind_eq_ok hx
      obtain ⟨bc, ec, hc, _⟩ := cid_sound len (by omega) _ _ _ hc
      obtain ⟨bk, ek, hk, _⟩ := uint_sound' 16 (by decide) _ _ _ _ hk
      have := congrArg List.length (ec.trans (congrArg _ ek))
      simp at this
      omega
example : 1 ≤ (3 : U8).toNat ∧ (3 : U8).toNat ≤ 20 ∧ IsVarInt [9] (9 : U64).toNat := ⟨by decide, by decide, isVarInt_one 9 (by decide)⟩

end QuicSea
