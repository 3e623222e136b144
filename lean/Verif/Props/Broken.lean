import Verif.Proofs.Decode
import Verif.Props.Every
/-
C142: streams that fail. The readers take a stream of bytes or errors (src/utils.rs:142-465: `Iterator<Item = Result<u8>>`), such as a file or a socket would give.
-/
namespace Spec
open QuicSea

/-- The bytes before an error, the error, and what would follow. -/
def brokenAt (pre : Bytes) (e : Error) (rest : Stream) : Stream := makeResultStream pre ++ .error e :: rest

/-- What a reader does that passes on the error of its stream: either it is done, with whatever result, before it comes to the error, and so for every continuation,
or the result is that error. -/
def PassesOn (m : Rd α) : Prop :=
  ∀ (pre : Bytes) (e : Error) (rest : Stream),
    (∃ out left, ∀ s, m (makeResultStream pre ++ s) = (out, makeResultStream left ++ s)) ∨ (m (brokenAt pre e rest)).1 = .err e
/-- The same for a reader that reads up to the end: it is never done before the error but by failing. -/
def PassesOnToEnd (m : Rd α) : Prop :=
  ∀ (pre : Bytes) (e : Error) (rest : Stream),
    (∃ out, out.isOk = false ∧ ∀ s, (m (makeResultStream pre ++ s)).1 = out) ∨ (m (brokenAt pre e rest)).1 = .err e

/-- C142: the error of the stream is what reading headers, frames and packets reports. -/
def C142For (P : Prims) : Prop :=
  PassesOn nextHeaderFromStream ∧ PassesOn deserializeFrame ∧ PassesOnToEnd deserializeFrames ∧
  ∀ (bp : Profile) (c : Connection), Connection.Reachable P bp c → PassesOn (decodeNextPacket bp c) ∧ PassesOnToEnd (decodePackets bp c)
/-- C142 as a statement. -/
def C142Statement : Prop := ∀ P, PrimLaws P → C142For P
end Spec

namespace QuicSea
open Spec

theorem _root_.Spec.PassesOn.pure (a : α) : PassesOn (Pure.pure a : Rd α) := fun pre _ _ => .inl ⟨.ok a, pre, fun _ => rfl⟩
theorem _root_.Spec.PassesOn.fail (e : Error) : PassesOn (Rd.fail e : Rd α) := fun pre _ _ => .inl ⟨.err e, pre, fun _ => rfl⟩
theorem _root_.Spec.PassesOn.lift (x : Out α) : PassesOn (Rd.lift x) := fun pre _ _ => .inl ⟨x, pre, fun _ => rfl⟩
theorem _root_.Spec.PassesOn.bind {m : Rd α} {f : α → Rd β} (h1 : PassesOn m) (h2 : ∀ a, PassesOn (f a)) : PassesOn (m >>= f) := by
  intro pre e rest
  rcases h1 pre e rest with ⟨out, left, h⟩ | h
  · cases out with
    | ok a =>
      rcases h2 a left e rest with ⟨out', left', h'⟩ | h'
      · exact .inl ⟨out', left', fun s => by rw [Rd.bind_apply, h s]; exact h' s⟩
      · refine .inr ?_
        unfold brokenAt
        rw [Rd.bind_apply, h]
        exact h'
    | err w => exact .inl ⟨.err w, left, fun s => by rw [Rd.bind_apply, h s]⟩
    | panic w => exact .inl ⟨.panic w, left, fun s => by rw [Rd.bind_apply, h s]⟩
  · refine .inr ?_
    rw [Rd.bind_apply]
    revert h
    rcases m (brokenAt pre e rest) with ⟨o, s'⟩
    intro h
    cases h
    rfl
theorem _root_.Spec.PassesOn.ite {c : Prop} [Decidable c] {a b : Rd α} (ha : PassesOn a) (hb : PassesOn b) : PassesOn (if c then a else b) := by split <;> assumption
/-- A reader on a copy of the stream. -/
theorem _root_.Spec.PassesOn.ahead {m : Rd α} (h : PassesOn m) : PassesOn (Rd.cloned >>= fun s => Rd.lift (m s).1) := by
  intro pre e rest
  rcases h pre e rest with ⟨out, left, h⟩ | h
  · exact .inl ⟨out, pre, fun s => by show ((m (makeResultStream pre ++ s)).1, _) = _; rw [h s]⟩
  · exact .inr h

theorem nextOr_passes (msg) : PassesOn (nextOr msg) := by
  intro pre e rest
  cases pre with
  | nil => exact .inr rfl
  | cons b pre => exact .inl ⟨.ok b, pre, fun _ => rfl⟩
theorem readArray_passes (msg) (n : Nat) : PassesOn (readArray msg n) := by
  induction n with
  | zero => exact .pure _
  | succ n ih => exact (nextOr_passes msg).bind fun _ => ih.bind fun _ => .pure _
theorem u8_passes : PassesOn u8FromDatagram := (readArray_passes _ 1).bind fun _ => (PassesOn.lift _).bind fun _ => .pure _
theorem uint_passes (size : Nat) (msg) : PassesOn (uintFromDatagram size msg) := (readArray_passes msg size).bind fun _ => (PassesOn.lift _).bind fun _ => .pure _
theorem u160Loop_passes (msg) (n : Nat) (a : U32) (b : U128) : PassesOn (u160Loop msg n a b) := by
  induction n generalizing a b with
  | zero => exact .pure _
  | succ n ih => exact (nextOr_passes msg).bind fun _ => ih _ _
theorem cid_passes (len : U8) : PassesOn (varU160FromStream len) := u160Loop_passes _ _ _ _
theorem varIntLoop_passes (n : Nat) (r : U64) : PassesOn (varIntLoop n r) := by
  induction n generalizing r with
  | zero => exact .pure _
  | succ n ih => exact (nextOr_passes _).bind fun _ => ih _
theorem varInt_passes : PassesOn varIntFromStream := (nextOr_passes _).bind fun _ => varIntLoop_passes _ _
theorem varIntWithBytesLoop_passes (n : Nat) (r : U64) (acc : Bytes) : PassesOn (varIntWithBytesLoop n r acc) := by
  induction n generalizing r acc with
  | zero => exact .pure _
  | succ n ih => exact (nextOr_passes _).bind fun _ => ih _ _
theorem varIntWithBytes_passes : PassesOn varIntWithBytesFromStream := (nextOr_passes _).bind fun _ => varIntWithBytesLoop_passes _ _ _
theorem varBytes_passes (n : Nat) : PassesOn (varBytesFromStream n) := by
  induction n with
  | zero => exact .pure _
  | succ n ih => exact (nextOr_passes _).bind fun _ => ih.bind fun _ => .pure _
theorem allBytes_passes : PassesOn allBytesFromStream := by
  intro pre e rest
  refine .inr ?_
  induction pre with
  | nil => rfl
  | cons b pre ih =>
    show (allBytesFromStream (.ok b :: brokenAt pre e rest)).1 = _
    rw [allBytesFromStream]
    revert ih
    rcases allBytesFromStream (brokenAt pre e rest) with ⟨o, s'⟩
    intro ih
    cases ih
    rfl

theorem ackRange_passes : PassesOn AckRange.fromDatagram := varInt_passes.bind fun _ => varInt_passes.bind fun _ => .pure _
theorem ranges_passes (n : Nat) : PassesOn (FrameAck.rangesFromDatagram n) := by
  induction n with
  | zero => exact .pure _
  | succ n ih => exact ackRange_passes.bind fun _ => ih.bind fun _ => .pure _
theorem ecn_passes : PassesOn EcnCounts.fromDatagram := varInt_passes.bind fun _ => varInt_passes.bind fun _ => varInt_passes.bind fun _ => .pure _
theorem body_passes (tb : U8) : PassesOn (deserializeFrameBody tb) := by
  simp only [deserializeFrameBody, FrameAck.fromDatagram, FrameResetStream.fromDatagram, FrameStopSending.fromDatagram,
    FrameCrypto.fromDatagram, FrameNewToken.fromDatagram, stream_fromDatagram_eq, FrameMaxData.fromDatagram,
    FrameMaxStreamData.fromDatagram, FrameMaxStreams.fromDatagram, FrameDataBlocked.fromDatagram,
    FrameStreamDataBlocked.fromDatagram, FrameStreamsBlocked.fromDatagram, FrameNewConnectionId.fromDatagram,
    FrameRetireConnectionId.fromDatagram, FramePathChallenge.fromDatagram, FramePathResponse.fromDatagram,
    FrameConnectionClose.fromDatagram, u64FromDatagram, u128FromDatagram]
  repeat' first
    | refine PassesOn.ite ?_ ?_ | exact PassesOn.pure _ | exact PassesOn.fail _ | exact varInt_passes | exact varBytes_passes _ | exact allBytes_passes
    | exact u8_passes | exact uint_passes _ _ | exact cid_passes _ | exact ranges_passes _ | exact ecn_passes
    | refine PassesOn.bind ?_ fun _ => ?_ | split
theorem frame_passes : PassesOn deserializeFrame := varInt_passes.bind fun _ => body_passes _

theorem ids_passes (v : U32) : PassesOn (idsFromStream v) := by
  unfold idsFromStream
  repeat' first
    | refine PassesOn.ite ?_ ?_
    | exact PassesOn.pure _
    | exact PassesOn.fail _
    | refine u8_passes.bind fun _ => ?_
    | refine (cid_passes _).bind fun _ => ?_
    | refine (varBytes_passes _).bind fun _ => ?_
theorem long_passes (hb : U8) : PassesOn (LongPacketHeader.fromStream hb) := by
  rw [long_eq]
  exact (uint_passes 4 _).bind fun v => (ids_passes v).bind fun x => (PassesOn.lift _).bind fun _ => .pure _
theorem short_passes (hb : U8) : PassesOn (ShortPacketHeader.fromStream hb) := ((uint_passes 8 _).bind fun _ => PassesOn.pure _).bind fun _ => .pure _
theorem nextHeader_passes : PassesOn nextHeaderFromStream := by
  refine (nextOr_passes _).bind fun b => PassesOn.ite ?_ ?_
  · exact (long_passes b).bind fun _ => .pure _
  · exact (short_passes b).bind fun _ => .pure _

theorem remoteMask_passes (c : Connection) (sp : PnSpace) : PassesOn (c.getRemoteHpMask sp) :=
  (PassesOn.lift _).bind fun _ => (varBytes_passes _).bind fun _ => .lift _
theorem tail_passes (bp : Profile) (c : Connection) (sp : PnSpace) (whole : Bool) (lenOf : Mask → Out Nat) (hdr : Mask → Out Bytes)
    {payload : Nat → Rd Bytes} (hp : ∀ n, PassesOn (payload n)) (mid : Bytes) : PassesOn (tail bp c sp whole lenOf hdr payload mid) := by
  have e : tail bp c sp whole lenOf hdr payload mid = (do
      let pnP ← varBytesFromStream 4
      let mask ← (Rd.cloned >>= fun s => Rd.lift (c.getRemoteHpMask sp s).1)
      let pnLength ← Rd.lift (lenOf mask)
      let pnU ← Rd.lift (xorPnProtection pnP mask)
      let pnB ← Rd.lift (sliceTo pnU pnLength)
      let pn ← Rd.lift (c.reconstructRemotePn bp sp (if whole then pnU else pnB))
      let data ← payload pnLength
      tailEnd c sp hdr mid mask pnB pn data) := by
    simp only [tail, Rd.bind_assoc]
  rw [e]
  exact (varBytes_passes 4).bind fun _ => (remoteMask_passes c sp).ahead.bind fun _ => (PassesOn.lift _).bind fun _ => (PassesOn.lift _).bind fun _ =>
    (PassesOn.lift _).bind fun _ => (PassesOn.lift _).bind fun _ => (hp _).bind fun _ =>
    (PassesOn.lift _).bind fun _ => (PassesOn.lift _).bind fun _ => (PassesOn.lift _).bind fun _ => .pure _
theorem lenBytes_passes (bp : Profile) (L : U64) (n : Nat) : PassesOn (lenBytes bp L n) := (PassesOn.lift _).bind fun _ => varBytes_passes _
theorem initial_passes (bp : Profile) (c : Connection) : PassesOn (PacketInitial.fromStream bp c) := by
  rw [initial_eq]
  exact u8_passes.bind fun _ => (long_passes _).bind fun _ => varIntWithBytes_passes.bind fun _ => (varBytes_passes _).bind fun _ =>
    varIntWithBytes_passes.bind fun _ => (tail_passes bp c _ _ _ _ (lenBytes_passes bp _) _).bind fun _ => .pure _
theorem handshake_passes (bp : Profile) (c : Connection) : PassesOn (PacketHandshake.fromStream bp c) := by
  rw [handshake_eq]
  exact u8_passes.bind fun _ => (long_passes _).bind fun _ => varIntWithBytes_passes.bind fun _ =>
    (tail_passes bp c _ _ _ _ (lenBytes_passes bp _) _).bind fun _ => .pure _
theorem zeroRtt_passes (bp : Profile) (c : Connection) : PassesOn (PacketZeroRtt.fromStream bp c) := by
  rw [zeroRtt_eq]
  exact u8_passes.bind fun _ => (long_passes _).bind fun _ => varIntWithBytes_passes.bind fun _ =>
    (tail_passes bp c _ _ _ _ (lenBytes_passes bp _) _).bind fun _ => .pure _
theorem oneRtt_passes (bp : Profile) (c : Connection) : PassesOn (PacketOneRtt.fromStream bp c) := by
  rw [oneRtt_eq]
  exact u8_passes.bind fun _ => (short_passes _).bind fun _ => (tail_passes bp c _ _ _ _ (fun _ => allBytes_passes) _).bind fun _ => .pure _
theorem vn_passes : PassesOn PacketVersionNegotiation.fromStream := by
  unfold PacketVersionNegotiation.fromStream
  exact u8_passes.bind fun _ => (long_passes _).bind fun _ => allBytes_passes.bind fun _ =>
    PassesOn.ite (PassesOn.fail _) ((PassesOn.lift _).bind fun _ => .pure _)

/-- Everything after the header. -/
def afterHeader (bp : Profile) (c : Connection) (header : PacketHeader) : Rd Packet :=
  match header with
  | .short _ => do
    let res ← PacketOneRtt.fromStream bp c
    pure (.oneRtt res)
  | .long x => do
    let t ← Rd.lift x.packetType
    match t with
    | .handshake => do let res ← PacketHandshake.fromStream bp c; pure (.handshake res)
    | .initial => do let res ← PacketInitial.fromStream bp c; pure (.initial res)
    | .zeroRtt => do let res ← PacketZeroRtt.fromStream bp c; pure (.zeroRtt res)
    | .retry => do let res ← PacketRetry.fromStream; pure (.retry res)
    | .versionNegotiation => do let res ← PacketVersionNegotiation.fromStream; pure (.versionNegotiation res)
    | _ => Rd.lift (.panic "internal error: entered unreachable code")
theorem afterHeader_passes (bp : Profile) (c : Connection) (x : PacketHeader) : PassesOn (afterHeader bp c x) := by
  unfold afterHeader
  split
  · exact (oneRtt_passes bp c).bind fun _ => .pure _
  · refine (PassesOn.lift _).bind fun t => ?_
    split
    · exact (handshake_passes bp c).bind fun _ => .pure _
    · exact (initial_passes bp c).bind fun _ => .pure _
    · exact (zeroRtt_passes bp c).bind fun _ => .pure _
    · exact (PassesOn.lift _).bind fun _ => .pure _
    · exact vn_passes.bind fun _ => .pure _
    · exact .lift _
theorem decodeNext_eq (bp : Profile) (c : Connection) (s : Stream) : decodeNextPacket bp c s =
    match (nextHeaderFromStream s).1.unwrap with
    | .ok x => afterHeader bp c x s
    | .err e => (.err e, s)
    | .panic w => (.panic w, s) := by
  show (Rd.cloned >>= fun hs => Rd.lift (nextHeaderFromStream hs).1.unwrap >>= afterHeader bp c) s = _
  rw [Rd.bind_ok (rfl : Rd.cloned s = (.ok s, s)), Rd.bind_apply, Rd.lift_apply]
  cases (nextHeaderFromStream s).1.unwrap <;> rfl

/-- What becomes of one packet: as `PassesOn`, but that there is a panic where the header is broken off. -/
theorem decodeNext_broken (bp : Profile) (c : Connection) (pre : Bytes) (e : Error) (rest : Stream) :
    (∃ out left, ∀ s, decodeNextPacket bp c (makeResultStream pre ++ s) = (out, makeResultStream left ++ s)) ∨
    (decodeNextPacket bp c (brokenAt pre e rest)).1 = .err e ∨
    ((nextHeaderFromStream (brokenAt pre e rest)).1 = .err e ∧
      (decodeNextPacket bp c (brokenAt pre e rest)).1 = .panic "called `Result::unwrap()` on an `Err` value") := by
  rcases nextHeader_passes pre e rest with ⟨out, left, h⟩ | h
  · cases out with
    | ok x =>
      rcases afterHeader_passes bp c x pre e rest with ⟨out', left', h'⟩ | h'
      · refine .inl ⟨out', left', fun s => ?_⟩
        rw [decodeNext_eq, h s]
        exact h' s
      · refine .inr (.inl ?_)
        rw [decodeNext_eq]
        unfold brokenAt at h' ⊢
        rw [h]
        exact h'
    | err w => exact .inl ⟨_, pre, fun s => by rw [decodeNext_eq, h s]; rfl⟩
    | panic w => exact .inl ⟨_, pre, fun s => by rw [decodeNext_eq, h s]; rfl⟩
  · refine .inr (.inr ⟨h, ?_⟩)
    rw [decodeNext_eq, h]
    rfl

/-- `brokenAt` without the definition. -/
theorem broken_eq (pre : Bytes) (e : Error) (rest : Stream) : brokenAt pre e rest = makeResultStream pre ++ .error e :: rest := rfl
theorem broken_ne (pre : Bytes) (e : Error) (rest : Stream) : brokenAt pre e rest ≠ [] := by
  cases pre <;> simp [brokenAt, makeResultStream]
theorem result_ne {pre : Bytes} (h : pre ≠ []) (s : Stream) : makeResultStream pre ++ s ≠ [] := by
  cases pre with
  | nil => exact absurd rfl h
  | cons b pre => simp [makeResultStream]

/-- The loop of `deserialize_frames`, once. -/
theorem frames_step (s : Stream) (hs : s ≠ []) : deserializeFrames s =
    (do let f ← deserializeFrame; let fs ← deserializeFrames; pure (f :: fs) : Rd (List Frame)) s := by
  match s, hs with
  | x :: s, _ =>
    rw [deserializeFrames_eq, Rd.bind_apply]
    show (match deserializeFrame (x :: s) with
      | (.ok f, s') => match deserializeFrames s' with
        | (.ok fs, s'') => (.ok (f :: fs), s'')
        | r => r
      | (.err e, s') => (.err e, s')
      | (.panic w, s') => (.panic w, s') : Out (List Frame) × Stream) = _
    rcases deserializeFrame (x :: s) with ⟨o, s'⟩
    cases o with
    | ok f =>
      show (match deserializeFrames s' with
        | (.ok fs, s'') => (.ok (f :: fs), s'')
        | r => r : Out (List Frame) × Stream) = (deserializeFrames >>= fun fs => pure (f :: fs)) s'
      rw [Rd.bind_apply]
      rcases deserializeFrames s' with ⟨o, s''⟩
      cases o <;> rfl
    | err e => rfl
    | panic w => rfl
/-- Frames: the loop. -/
theorem frames_broken : PassesOnToEnd deserializeFrames := by
  intro pre
  generalize hn : pre.length = n
  induction n using Nat.strongRecOn generalizing pre with
  | ind n ih =>
    intro e rest
    by_cases hp : pre = []
    · subst hp
      refine .inr ?_
      rw [frames_step _ (broken_ne _ _ _)]
      rfl
    rcases frame_passes pre e rest with ⟨out, left, h⟩ | h
    · cases out with
      | ok f =>
        have hl := frame_consumes (h [])
        have hl : left.length < n := by
          rw [← hn]
          simpa [makeResultStream] using hl
        rcases ih _ hl left rfl e rest with ⟨out', ho, h'⟩ | h'
        · refine .inl ⟨out', ho, fun s => ?_⟩
          rw [frames_step _ (result_ne hp s), Rd.bind_apply, h s]
          show ((deserializeFrames >>= fun fs => pure (f :: fs)) (makeResultStream left ++ s)).1 = _
          have h' := h' s
          rw [Rd.bind_apply]
          revert h'
          rcases deserializeFrames (makeResultStream left ++ s) with ⟨o, s'⟩
          intro h'
          cases h'
          cases o <;> first | rfl | cases ho
        · refine .inr ?_
          rw [frames_step _ (broken_ne _ _ _), broken_eq, Rd.bind_apply, h]
          show ((deserializeFrames >>= fun fs => pure (f :: fs)) (brokenAt left e rest)).1 = _
          rw [Rd.bind_apply]
          revert h'
          rcases deserializeFrames (brokenAt left e rest) with ⟨o, s'⟩
          intro h'
          cases h'
          rfl
      | err w =>
        refine .inl ⟨.err w, rfl, fun s => ?_⟩
        rw [frames_step _ (result_ne hp s), Rd.bind_apply, h s]
      | panic w =>
        refine .inl ⟨.panic w, rfl, fun s => ?_⟩
        rw [frames_step _ (result_ne hp s), Rd.bind_apply, h s]
    · refine .inr ?_
      rw [frames_step _ (broken_ne _ _ _), Rd.bind_apply]
      revert h
      rcases deserializeFrame (brokenAt pre e rest) with ⟨o, s'⟩
      intro h
      cases h
      rfl

/-- The error came while the header of a packet was read. -/
def _root_.Spec.InHeader (pre : Bytes) (e : Error) (rest : Stream) : Prop :=
  ∃ tl, tl <:+ pre ∧ (nextHeaderFromStream (brokenAt tl e rest)).1 = .err e

theorem suffix_of_result {a b : Bytes} (h : makeResultStream a <:+ makeResultStream b) : a <:+ b := by
  obtain ⟨t, ht⟩ := h
  obtain ⟨l1, l2, rfl, -, h2⟩ := List.append_eq_map_iff.mp ht
  have : l2 = a := (List.map_inj_right fun x y h => by cases h; rfl).mp h2
  rw [this]
  exact List.suffix_append _ _

/-- Packets: the loop. -/
theorem packets_broken (bp : Profile) (c : Connection) (pre : Bytes) (e : Error) (rest : Stream) :
    (∃ out, out.isOk = false ∧ ∀ s, (decodePackets bp c (makeResultStream pre ++ s)).1 = out) ∨
    (decodePackets bp c (brokenAt pre e rest)).1 = .err e ∨
    (InHeader pre e rest ∧ (decodePackets bp c (brokenAt pre e rest)).1 = .panic "called `Result::unwrap()` on an `Err` value") := by
  generalize hn : pre.length = n
  induction n using Nat.strongRecOn generalizing pre with
  | ind n ih =>
    by_cases hp : pre = []
    · subst hp
      refine .inr (.inr ⟨⟨[], List.suffix_rfl, rfl⟩, ?_⟩)
      rw [decodePackets_eq _ _ _ (broken_ne _ _ _)]
      rfl
    rcases decodeNext_broken bp c pre e rest with ⟨out, left, h⟩ | h | ⟨hh, h⟩
    · cases out with
      | ok p =>
        obtain ⟨hs, hl⟩ := decodeNext_consumes bp c _ _ _ (h [])
        rw [List.append_nil, List.append_nil] at hs
        have hs := suffix_of_result hs
        have hl : left.length < n := by
          rw [← hn]
          simpa [makeResultStream] using hl
        rcases ih _ hl left rfl with ⟨out', ho, h'⟩ | h' | ⟨⟨tl, ht, hh⟩, h'⟩
        · refine .inl ⟨out', ho, fun s => ?_⟩
          rw [decodePackets_eq _ _ _ (result_ne hp s), Rd.bind_apply, h s]
          show ((decodePackets bp c >>= fun fs => pure (p :: fs)) (makeResultStream left ++ s)).1 = _
          have h' := h' s
          rw [Rd.bind_apply]
          revert h'
          rcases decodePackets bp c (makeResultStream left ++ s) with ⟨o, s'⟩
          intro h'
          cases h'
          cases o <;> first | rfl | cases ho
        · refine .inr (.inl ?_)
          rw [decodePackets_eq _ _ _ (broken_ne _ _ _), broken_eq, Rd.bind_apply, h]
          show ((decodePackets bp c >>= fun fs => pure (p :: fs)) (brokenAt left e rest)).1 = _
          rw [Rd.bind_apply]
          revert h'
          rcases decodePackets bp c (brokenAt left e rest) with ⟨o, s'⟩
          intro h'
          cases h'
          rfl
        · refine .inr (.inr ⟨⟨tl, ht.trans hs, hh⟩, ?_⟩)
          rw [decodePackets_eq _ _ _ (broken_ne _ _ _), broken_eq, Rd.bind_apply, h]
          show ((decodePackets bp c >>= fun fs => pure (p :: fs)) (brokenAt left e rest)).1 = _
          rw [Rd.bind_apply]
          revert h'
          rcases decodePackets bp c (brokenAt left e rest) with ⟨o, s'⟩
          intro h'
          cases h'
          rfl
      | err w =>
        refine .inl ⟨.err w, rfl, fun s => ?_⟩
        rw [decodePackets_eq _ _ _ (result_ne hp s), Rd.bind_apply, h s]
      | panic w =>
        refine .inl ⟨.panic w, rfl, fun s => ?_⟩
        rw [decodePackets_eq _ _ _ (result_ne hp s), Rd.bind_apply, h s]
    · refine .inr (.inl ?_)
      rw [decodePackets_eq _ _ _ (broken_ne _ _ _), Rd.bind_apply]
      revert h
      rcases decodeNextPacket bp c (brokenAt pre e rest) with ⟨o, s'⟩
      intro h
      cases h
      rfl
    · refine .inr (.inr ⟨⟨pre, List.suffix_rfl, hh⟩, ?_⟩)
      rw [decodePackets_eq _ _ _ (broken_ne _ _ _), Rd.bind_apply]
      revert h
      rcases decodeNextPacket bp c (brokenAt pre e rest) with ⟨o, s'⟩
      intro h
      cases h
      rfl

/-! ### C142 -/

/-- C142, headers: the error of the stream is reported. -/
theorem C142_headers : PassesOn nextHeaderFromStream := nextHeader_passes
/-- C142, one frame. -/
theorem C142_frame : PassesOn deserializeFrame := frame_passes
/-- C142, frames up to the end. -/
theorem C142_frames : PassesOnToEnd deserializeFrames := frames_broken
/-- C142, packets, in every state of a connection: reported, but that there is a panic (src/packet.rs:776 unwraps) if it comes while a header is read.
Missing for the full statement: errors within a header, for which it is false (`C142_panics`). -/
theorem C142_packets_partial (bp : Profile) (c : Connection) (pre : Bytes) (e : Error) (rest : Stream) :
    (∃ out, out.isOk = false ∧ ∀ s, (decodePackets bp c (makeResultStream pre ++ s)).1 = out) ∨
    (decodePackets bp c (brokenAt pre e rest)).1 = .err e ∨
    (InHeader pre e rest ∧ (decodePackets bp c (brokenAt pre e rest)).1 = .panic "called `Result::unwrap()` on an `Err` value") :=
  packets_broken bp c pre e rest
/-- C142, one packet, in every state of a connection.
Missing for the full statement: errors within a header, for which it is false (`C142_panics`). -/
theorem C142_packet_partial (bp : Profile) (c : Connection) (pre : Bytes) (e : Error) (rest : Stream) :
    (∃ out left, ∀ s, decodeNextPacket bp c (makeResultStream pre ++ s) = (out, makeResultStream left ++ s)) ∨
    (decodeNextPacket bp c (brokenAt pre e rest)).1 = .err e ∨
    ((nextHeaderFromStream (brokenAt pre e rest)).1 = .err e ∧
      (decodeNextPacket bp c (brokenAt pre e rest)).1 = .panic "called `Result::unwrap()` on an `Err` value") :=
  decodeNext_broken bp c pre e rest
/-- C142: of a stream with an error nothing is ever delivered, neither frames nor packets. -/
theorem C142_nothing (bp : Profile) (c : Connection) (pre : Bytes) (e : Error) (rest : Stream) :
    (deserializeFrames (brokenAt pre e rest)).1.isOk = false ∧ (decodePackets bp c (brokenAt pre e rest)).1.isOk = false := by
  constructor
  · rcases frames_broken pre e rest with ⟨out, ho, h⟩ | h
    · rw [broken_eq, h, ho]
    · rw [h]; rfl
  · rcases packets_broken bp c pre e rest with ⟨out, ho, h⟩ | h | ⟨-, h⟩
    · rw [broken_eq, h, ho]
    · rw [h]; rfl
    · rw [h]; rfl
/-- C142: where the code differs. Whatever was read before, an error in a header is a panic: for every connection and every header broken off. -/
theorem C142_panics (bp : Profile) (c : Connection) (pre : Bytes) (e : Error) (rest : Stream) (h : (nextHeaderFromStream (brokenAt pre e rest)).1 = .err e) :
    (decodeNextPacket bp c (brokenAt pre e rest)).1 = .panic "called `Result::unwrap()` on an `Err` value" ∧
    (decodePackets bp c (brokenAt pre e rest)).1 = .panic "called `Result::unwrap()` on an `Err` value" := by
  have h1 : (decodeNextPacket bp c (brokenAt pre e rest)).1 = .panic "called `Result::unwrap()` on an `Err` value" := by
    rw [decodeNext_eq, h]
    rfl
  refine ⟨h1, ?_⟩
  rw [decodePackets_eq _ _ _ (broken_ne _ _ _), Rd.bind_apply]
  revert h1
  rcases decodeNextPacket bp c (brokenAt pre e rest) with ⟨o, s'⟩
  intro h
  cases h
  rfl

/-- C142 is false, whatever the primitives. -/
theorem C142_false_any (P : Prims) (hP : PrimLaws P) : ¬ C142For P := by
  intro h
  obtain ⟨c, hc⟩ := any_conn hP true
  have hr : Connection.Reachable P .debug c := ⟨true, .v1, _, 8, c, [], hc, rfl⟩
  obtain ⟨-, h⟩ := h.2.2.2 .debug c hr
  rcases h [] .noError [] with ⟨out, ho, h⟩ | h
  · have := h []
    rw [← this] at ho
    cases ho
  · rw [(C142_panics .debug c [] _ [] rfl).2] at h
    cases h
/-- C142 is false. -/
theorem C142_false : ¬ C142Statement := fun h => C142_false_any Spec.toy toy_laws (h _ toy_laws)
/-- C142 is false for the primitives the code uses. -/
theorem C142_false_real : ¬ C142For Spec.real := C142_false_any _ real_laws

/-! Cases that meet the hypotheses: a MAX_DATA frame broken off in its value, after a PING that was read; one whose type is unknown before the error;
a long header broken off in its connection identifier. -/
example : (deserializeFrames (brokenAt [0x01, 0x10, 0x40] .connectionRefused [.ok 7])).1 = .err .connectionRefused := by decide +kernel
example : (deserializeFrames (brokenAt [0x01, 0x1f, 0x40] .connectionRefused [.ok 7])).1 ≠ .err .connectionRefused := by decide +kernel
example : (nextHeaderFromStream (brokenAt [0xc3, 0, 0, 0, 1, 8, 1, 2] .connectionRefused [.ok 7])).1 = .err .connectionRefused := by decide +kernel

end QuicSea
