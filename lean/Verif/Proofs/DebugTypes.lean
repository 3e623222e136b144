import Verif.Proofs.Debug
/-
Every type of the crate that is printed has a text that determines the value.
-/
namespace QuicSea
open Spec

theorem dbgInt_inj {x y : BitVec w} : dbgInt x = dbgInt y ↔ x = y := by simp [dbgInt, BitVec.toNat_inj]
theorem dbgBool_inj {x y : Bool} : dbgBool x = dbgBool y ↔ x = y := by cases x <;> cases y <;> simp [dbgBool]
theorem map_dbg_inj {f : α → Dbg} (hf : ∀ x y, f x = f y ↔ x = y) (xs ys : List α) : xs.map f = ys.map f ↔ xs = ys := by
  constructor
  · intro h
    induction xs generalizing ys with
    | nil => cases ys with
      | nil => rfl
      | cons y ys => simp at h
    | cons x xs ih => cases ys with
      | nil => simp at h
      | cons y ys =>
        simp only [List.map_cons, List.cons.injEq] at h
        rw [(hf x y).1 h.1, ih ys h.2]
  · rintro rfl; rfl
theorem dbgVec_inj {f : α → Dbg} (hf : ∀ x y, f x = f y ↔ x = y) {xs ys : List α} : dbgVec f xs = dbgVec f ys ↔ xs = ys := by
  simp only [dbgVec, Dbg.seq.injEq]; exact map_dbg_inj hf xs ys
theorem dbgBytes_inj {xs ys : Bytes} : dbgBytes xs = dbgBytes ys ↔ xs = ys := dbgVec_inj fun _ _ => dbgInt_inj
theorem dbgInts_inj {xs ys : List (BitVec w)} : dbgVec dbgInt xs = dbgVec dbgInt ys ↔ xs = ys := dbgVec_inj fun _ _ => dbgInt_inj
theorem dbgOption_inj {f : α → Dbg} (hf : ∀ x y, f x = f y ↔ x = y) {x y : Option α} : dbgOption f x = dbgOption f y ↔ x = y := by
  cases x <;> cases y <;> simp [dbgOption, hf]

theorem dbgInt_wf (x : BitVec w) : (dbgInt x).wf = true := rfl
theorem dbgBool_wf (b : Bool) : (dbgBool b).wf = true := by cases b <;> decide
theorem wfList_map {f : α → Dbg} (hf : ∀ x, (f x).wf = true ∧ (f x).shown = true) (xs : List α) : Dbg.wfList (xs.map f) = true := by
  induction xs with
  | nil => rfl
  | cons x xs ih => simp [Dbg.wfList, hf, ih]
theorem dbgVec_wf {f : α → Dbg} (hf : ∀ x, (f x).wf = true ∧ (f x).shown = true) (xs : List α) : (dbgVec f xs).wf = true := by
  simp only [dbgVec, Dbg.wf]; exact wfList_map hf xs
theorem dbgBytes_wf (xs : Bytes) : (dbgBytes xs).wf = true := dbgVec_wf (fun _ => ⟨rfl, rfl⟩) xs
theorem dbgInts_wf (xs : List (BitVec w)) : (dbgVec dbgInt xs).wf = true := dbgVec_wf (fun _ => ⟨rfl, rfl⟩) xs
theorem dbgOption_wf {f : α → Dbg} (hf : ∀ x, (f x).wf = true ∧ (f x).shown = true) (x : Option α) : (dbgOption f x).wf = true := by
  cases x with
  | none => exact (by decide : isName "None" = true)
  | some x => simp [dbgOption, Dbg.wf, Dbg.wfList, hf, show isName "Some" = true by decide]

theorem tup1_wf {n : String} {x : Dbg} (h : isName n = true) (hx : x.wf = true ∧ x.shown = true) : (Dbg.tup n [x]).wf = true := by
  simp [Dbg.wf, Dbg.wfList, h, hx]
/-- Structs. -/
macro "wf_tac" "[" ls:Lean.Parser.Tactic.simpLemma,* "]" : tactic =>
  `(tactic| (simp (decide := true) only [Dbg.wf, Dbg.wfFields, Dbg.wfList, dbgInt_wf, dbgBool_wf, dbgBytes_wf, dbgInts_wf, Bool.and_true, Bool.true_and, Bool.not_false,
    List.isEmpty, Bool.or_true, Bool.true_or, Dbg.shown, $ls,*]))
/-- Structs. -/
macro "inj_tac" "[" ls:Lean.Parser.Tactic.simpLemma,* "]" : tactic =>
  `(tactic| simp [dbgInt_inj, dbgBool_inj, dbgBytes_inj, dbgInts_inj, $ls,*])

theorem dbgInt_wf' (x : BitVec w) : (dbgInt x).wf = true ∧ (dbgInt x).shown = true := ⟨rfl, rfl⟩
theorem dbgInt_inj' (x y : BitVec w) : dbgInt x = dbgInt y ↔ x = y := dbgInt_inj
theorem U160.dbg_wf (x : U160) : x.dbg.wf = true := by
  wf_tac [U160.dbg]
theorem U160.dbg_wf' (x : U160) : x.dbg.wf = true ∧ x.dbg.shown = true := ⟨x.dbg_wf, rfl⟩
theorem U160.dbg_inj (x y : U160) : x.dbg = y.dbg ↔ x = y := by
  cases x; cases y; inj_tac [U160.dbg]
theorem EcnCounts.dbg_wf (x : EcnCounts) : x.dbg.wf = true := by
  wf_tac [EcnCounts.dbg]
theorem EcnCounts.dbg_wf' (x : EcnCounts) : x.dbg.wf = true ∧ x.dbg.shown = true := ⟨x.dbg_wf, rfl⟩
theorem EcnCounts.dbg_inj (x y : EcnCounts) : x.dbg = y.dbg ↔ x = y := by
  cases x; cases y; inj_tac [EcnCounts.dbg]
theorem AckRange.dbg_wf (x : AckRange) : x.dbg.wf = true := by
  wf_tac [AckRange.dbg]
theorem AckRange.dbg_wf' (x : AckRange) : x.dbg.wf = true ∧ x.dbg.shown = true := ⟨x.dbg_wf, rfl⟩
theorem AckRange.dbg_inj (x y : AckRange) : x.dbg = y.dbg ↔ x = y := by
  cases x; cases y; inj_tac [AckRange.dbg]
theorem FrameAck.dbg_wf (x : FrameAck) : x.dbg.wf = true := by
  wf_tac [FrameAck.dbg, dbgVec_wf AckRange.dbg_wf', dbgOption_wf EcnCounts.dbg_wf']
theorem FrameAck.dbg_wf' (x : FrameAck) : x.dbg.wf = true ∧ x.dbg.shown = true := ⟨x.dbg_wf, rfl⟩
theorem FrameAck.dbg_inj (x y : FrameAck) : x.dbg = y.dbg ↔ x = y := by
  cases x; cases y; inj_tac [FrameAck.dbg, dbgVec_inj @AckRange.dbg_inj, dbgOption_inj @EcnCounts.dbg_inj]
theorem FrameResetStream.dbg_wf (x : FrameResetStream) : x.dbg.wf = true := by
  wf_tac [FrameResetStream.dbg]
theorem FrameResetStream.dbg_wf' (x : FrameResetStream) : x.dbg.wf = true ∧ x.dbg.shown = true := ⟨x.dbg_wf, rfl⟩
theorem FrameResetStream.dbg_inj (x y : FrameResetStream) : x.dbg = y.dbg ↔ x = y := by
  cases x; cases y; inj_tac [FrameResetStream.dbg]
theorem FrameStopSending.dbg_wf (x : FrameStopSending) : x.dbg.wf = true := by
  wf_tac [FrameStopSending.dbg]
theorem FrameStopSending.dbg_wf' (x : FrameStopSending) : x.dbg.wf = true ∧ x.dbg.shown = true := ⟨x.dbg_wf, rfl⟩
theorem FrameStopSending.dbg_inj (x y : FrameStopSending) : x.dbg = y.dbg ↔ x = y := by
  cases x; cases y; inj_tac [FrameStopSending.dbg]
theorem FrameCrypto.dbg_wf (x : FrameCrypto) : x.dbg.wf = true := by
  wf_tac [FrameCrypto.dbg]
theorem FrameCrypto.dbg_wf' (x : FrameCrypto) : x.dbg.wf = true ∧ x.dbg.shown = true := ⟨x.dbg_wf, rfl⟩
theorem FrameCrypto.dbg_inj (x y : FrameCrypto) : x.dbg = y.dbg ↔ x = y := by
  cases x; cases y; inj_tac [FrameCrypto.dbg]
theorem FrameNewToken.dbg_wf (x : FrameNewToken) : x.dbg.wf = true := by
  wf_tac [FrameNewToken.dbg]
theorem FrameNewToken.dbg_wf' (x : FrameNewToken) : x.dbg.wf = true ∧ x.dbg.shown = true := ⟨x.dbg_wf, rfl⟩
theorem FrameNewToken.dbg_inj (x y : FrameNewToken) : x.dbg = y.dbg ↔ x = y := by
  cases x; cases y; inj_tac [FrameNewToken.dbg]
theorem FrameStream.dbg_wf (x : FrameStream) : x.dbg.wf = true := by
  wf_tac [FrameStream.dbg]
theorem FrameStream.dbg_wf' (x : FrameStream) : x.dbg.wf = true ∧ x.dbg.shown = true := ⟨x.dbg_wf, rfl⟩
theorem FrameStream.dbg_inj (x y : FrameStream) : x.dbg = y.dbg ↔ x = y := by
  cases x; cases y; inj_tac [FrameStream.dbg]
theorem FrameMaxData.dbg_wf (x : FrameMaxData) : x.dbg.wf = true := by
  wf_tac [FrameMaxData.dbg]
theorem FrameMaxData.dbg_wf' (x : FrameMaxData) : x.dbg.wf = true ∧ x.dbg.shown = true := ⟨x.dbg_wf, rfl⟩
theorem FrameMaxData.dbg_inj (x y : FrameMaxData) : x.dbg = y.dbg ↔ x = y := by
  cases x; cases y; inj_tac [FrameMaxData.dbg]
theorem FrameMaxStreamData.dbg_wf (x : FrameMaxStreamData) : x.dbg.wf = true := by
  wf_tac [FrameMaxStreamData.dbg]
theorem FrameMaxStreamData.dbg_wf' (x : FrameMaxStreamData) : x.dbg.wf = true ∧ x.dbg.shown = true := ⟨x.dbg_wf, rfl⟩
theorem FrameMaxStreamData.dbg_inj (x y : FrameMaxStreamData) : x.dbg = y.dbg ↔ x = y := by
  cases x; cases y; inj_tac [FrameMaxStreamData.dbg]
theorem FrameMaxStreams.dbg_wf (x : FrameMaxStreams) : x.dbg.wf = true := by
  wf_tac [FrameMaxStreams.dbg]
theorem FrameMaxStreams.dbg_wf' (x : FrameMaxStreams) : x.dbg.wf = true ∧ x.dbg.shown = true := ⟨x.dbg_wf, rfl⟩
theorem FrameMaxStreams.dbg_inj (x y : FrameMaxStreams) : x.dbg = y.dbg ↔ x = y := by
  cases x; cases y; inj_tac [FrameMaxStreams.dbg]
theorem FrameDataBlocked.dbg_wf (x : FrameDataBlocked) : x.dbg.wf = true := by
  wf_tac [FrameDataBlocked.dbg]
theorem FrameDataBlocked.dbg_wf' (x : FrameDataBlocked) : x.dbg.wf = true ∧ x.dbg.shown = true := ⟨x.dbg_wf, rfl⟩
theorem FrameDataBlocked.dbg_inj (x y : FrameDataBlocked) : x.dbg = y.dbg ↔ x = y := by
  cases x; cases y; inj_tac [FrameDataBlocked.dbg]
theorem FrameStreamDataBlocked.dbg_wf (x : FrameStreamDataBlocked) : x.dbg.wf = true := by
  wf_tac [FrameStreamDataBlocked.dbg]
theorem FrameStreamDataBlocked.dbg_wf' (x : FrameStreamDataBlocked) : x.dbg.wf = true ∧ x.dbg.shown = true := ⟨x.dbg_wf, rfl⟩
theorem FrameStreamDataBlocked.dbg_inj (x y : FrameStreamDataBlocked) : x.dbg = y.dbg ↔ x = y := by
  cases x; cases y; inj_tac [FrameStreamDataBlocked.dbg]
theorem FrameStreamsBlocked.dbg_wf (x : FrameStreamsBlocked) : x.dbg.wf = true := by
  wf_tac [FrameStreamsBlocked.dbg]
theorem FrameStreamsBlocked.dbg_wf' (x : FrameStreamsBlocked) : x.dbg.wf = true ∧ x.dbg.shown = true := ⟨x.dbg_wf, rfl⟩
theorem FrameStreamsBlocked.dbg_inj (x y : FrameStreamsBlocked) : x.dbg = y.dbg ↔ x = y := by
  cases x; cases y; inj_tac [FrameStreamsBlocked.dbg]
theorem FrameNewConnectionId.dbg_wf (x : FrameNewConnectionId) : x.dbg.wf = true := by
  wf_tac [FrameNewConnectionId.dbg, U160.dbg_wf]
theorem FrameNewConnectionId.dbg_wf' (x : FrameNewConnectionId) : x.dbg.wf = true ∧ x.dbg.shown = true := ⟨x.dbg_wf, rfl⟩
theorem FrameNewConnectionId.dbg_inj (x y : FrameNewConnectionId) : x.dbg = y.dbg ↔ x = y := by
  cases x; cases y; inj_tac [FrameNewConnectionId.dbg, U160.dbg_inj]
theorem FrameRetireConnectionId.dbg_wf (x : FrameRetireConnectionId) : x.dbg.wf = true := by
  wf_tac [FrameRetireConnectionId.dbg]
theorem FrameRetireConnectionId.dbg_wf' (x : FrameRetireConnectionId) : x.dbg.wf = true ∧ x.dbg.shown = true := ⟨x.dbg_wf, rfl⟩
theorem FrameRetireConnectionId.dbg_inj (x y : FrameRetireConnectionId) : x.dbg = y.dbg ↔ x = y := by
  cases x; cases y; inj_tac [FrameRetireConnectionId.dbg]
theorem FramePathChallenge.dbg_wf (x : FramePathChallenge) : x.dbg.wf = true := by
  wf_tac [FramePathChallenge.dbg]
theorem FramePathChallenge.dbg_wf' (x : FramePathChallenge) : x.dbg.wf = true ∧ x.dbg.shown = true := ⟨x.dbg_wf, rfl⟩
theorem FramePathChallenge.dbg_inj (x y : FramePathChallenge) : x.dbg = y.dbg ↔ x = y := by
  cases x; cases y; inj_tac [FramePathChallenge.dbg]
theorem FramePathResponse.dbg_wf (x : FramePathResponse) : x.dbg.wf = true := by
  wf_tac [FramePathResponse.dbg]
theorem FramePathResponse.dbg_wf' (x : FramePathResponse) : x.dbg.wf = true ∧ x.dbg.shown = true := ⟨x.dbg_wf, rfl⟩
theorem FramePathResponse.dbg_inj (x y : FramePathResponse) : x.dbg = y.dbg ↔ x = y := by
  cases x; cases y; inj_tac [FramePathResponse.dbg]
theorem FrameConnectionClose.dbg_wf (x : FrameConnectionClose) : x.dbg.wf = true := by
  wf_tac [FrameConnectionClose.dbg, dbgOption_wf dbgInt_wf']
theorem FrameConnectionClose.dbg_wf' (x : FrameConnectionClose) : x.dbg.wf = true ∧ x.dbg.shown = true := ⟨x.dbg_wf, rfl⟩
theorem FrameConnectionClose.dbg_inj (x y : FrameConnectionClose) : x.dbg = y.dbg ↔ x = y := by
  cases x; cases y; inj_tac [FrameConnectionClose.dbg, dbgOption_inj dbgInt_inj']
theorem Frame.dbg_wf' (x : Frame) : x.dbg.wf = true ∧ x.dbg.shown = true := by
  cases x with
  | padding => exact ⟨(by decide : isName "Padding" = true), rfl⟩
  | ping => exact ⟨(by decide : isName "Ping" = true), rfl⟩
  | ack x => exact ⟨tup1_wf (by decide) x.dbg_wf', rfl⟩
  | resetStream x => exact ⟨tup1_wf (by decide) x.dbg_wf', rfl⟩
  | stopSending x => exact ⟨tup1_wf (by decide) x.dbg_wf', rfl⟩
  | crypto x => exact ⟨tup1_wf (by decide) x.dbg_wf', rfl⟩
  | newToken x => exact ⟨tup1_wf (by decide) x.dbg_wf', rfl⟩
  | stream x => exact ⟨tup1_wf (by decide) x.dbg_wf', rfl⟩
  | maxData x => exact ⟨tup1_wf (by decide) x.dbg_wf', rfl⟩
  | maxStreamData x => exact ⟨tup1_wf (by decide) x.dbg_wf', rfl⟩
  | maxStreams x => exact ⟨tup1_wf (by decide) x.dbg_wf', rfl⟩
  | dataBlocked x => exact ⟨tup1_wf (by decide) x.dbg_wf', rfl⟩
  | streamDataBlocked x => exact ⟨tup1_wf (by decide) x.dbg_wf', rfl⟩
  | streamsBlocked x => exact ⟨tup1_wf (by decide) x.dbg_wf', rfl⟩
  | newConnectionId x => exact ⟨tup1_wf (by decide) x.dbg_wf', rfl⟩
  | retireConnectionId x => exact ⟨tup1_wf (by decide) x.dbg_wf', rfl⟩
  | pathChallenge x => exact ⟨tup1_wf (by decide) x.dbg_wf', rfl⟩
  | pathResponse x => exact ⟨tup1_wf (by decide) x.dbg_wf', rfl⟩
  | connectionClose x => exact ⟨tup1_wf (by decide) x.dbg_wf', rfl⟩
  | handshakeDone => exact ⟨(by decide : isName "HandshakeDone" = true), rfl⟩
theorem Frame.dbg_wf (x : Frame) : x.dbg.wf = true := x.dbg_wf'.1
theorem Frame.dbg_inj (x y : Frame) : x.dbg = y.dbg ↔ x = y := by
  cases x <;> cases y <;> inj_tac [Frame.dbg, FrameAck.dbg_inj, FrameResetStream.dbg_inj, FrameStopSending.dbg_inj, FrameCrypto.dbg_inj, FrameNewToken.dbg_inj, FrameStream.dbg_inj, FrameMaxData.dbg_inj, FrameMaxStreamData.dbg_inj, FrameMaxStreams.dbg_inj, FrameDataBlocked.dbg_inj, FrameStreamDataBlocked.dbg_inj, FrameStreamsBlocked.dbg_inj, FrameNewConnectionId.dbg_inj, FrameRetireConnectionId.dbg_inj, FramePathChallenge.dbg_inj, FramePathResponse.dbg_inj, FrameConnectionClose.dbg_inj]
theorem VnFields.dbg_wf (x : VnFields) : x.dbg.wf = true := by
  wf_tac [VnFields.dbg]
theorem VnFields.dbg_wf' (x : VnFields) : x.dbg.wf = true ∧ x.dbg.shown = true := ⟨x.dbg_wf, rfl⟩
theorem VnFields.dbg_inj (x y : VnFields) : x.dbg = y.dbg ↔ x = y := by
  cases x; cases y; inj_tac [VnFields.dbg]
theorem LongPacketHeader.dbg_wf (x : LongPacketHeader) : x.dbg.wf = true := by
  wf_tac [LongPacketHeader.dbg, U160.dbg_wf, dbgOption_wf VnFields.dbg_wf']
theorem LongPacketHeader.dbg_wf' (x : LongPacketHeader) : x.dbg.wf = true ∧ x.dbg.shown = true := ⟨x.dbg_wf, rfl⟩
theorem LongPacketHeader.dbg_inj (x y : LongPacketHeader) : x.dbg = y.dbg ↔ x = y := by
  cases x; cases y; inj_tac [LongPacketHeader.dbg, U160.dbg_inj, dbgOption_inj VnFields.dbg_inj]
theorem ShortPacketHeader.dbg_wf (x : ShortPacketHeader) : x.dbg.wf = true := by
  wf_tac [ShortPacketHeader.dbg, U160.dbg_wf]
theorem ShortPacketHeader.dbg_wf' (x : ShortPacketHeader) : x.dbg.wf = true ∧ x.dbg.shown = true := ⟨x.dbg_wf, rfl⟩
theorem ShortPacketHeader.dbg_inj (x y : ShortPacketHeader) : x.dbg = y.dbg ↔ x = y := by
  cases x; cases y; inj_tac [ShortPacketHeader.dbg, U160.dbg_inj]
theorem PacketHeader.dbg_wf' (x : PacketHeader) : x.dbg.wf = true ∧ x.dbg.shown = true := by
  cases x with
  | short x => exact ⟨tup1_wf (by decide) x.dbg_wf', rfl⟩
  | long x => exact ⟨tup1_wf (by decide) x.dbg_wf', rfl⟩
theorem PacketHeader.dbg_wf (x : PacketHeader) : x.dbg.wf = true := x.dbg_wf'.1
theorem PacketHeader.dbg_inj (x y : PacketHeader) : x.dbg = y.dbg ↔ x = y := by
  cases x <;> cases y <;> inj_tac [PacketHeader.dbg, LongPacketHeader.dbg_inj, ShortPacketHeader.dbg_inj]
theorem PacketVersionNegotiation.dbg_wf (x : PacketVersionNegotiation) : x.dbg.wf = true := by
  wf_tac [PacketVersionNegotiation.dbg, U160.dbg_wf, LongPacketHeader.dbg_wf, ShortPacketHeader.dbg_wf, dbgVec_wf Frame.dbg_wf']
theorem PacketVersionNegotiation.dbg_wf' (x : PacketVersionNegotiation) : x.dbg.wf = true ∧ x.dbg.shown = true := ⟨x.dbg_wf, rfl⟩
theorem PacketVersionNegotiation.dbg_inj (x y : PacketVersionNegotiation) : x.dbg = y.dbg ↔ x = y := by
  cases x; cases y; inj_tac [PacketVersionNegotiation.dbg, U160.dbg_inj, LongPacketHeader.dbg_inj, ShortPacketHeader.dbg_inj, dbgVec_inj Frame.dbg_inj]
theorem PacketInitial.dbg_wf (x : PacketInitial) : x.dbg.wf = true := by
  wf_tac [PacketInitial.dbg, U160.dbg_wf, LongPacketHeader.dbg_wf, ShortPacketHeader.dbg_wf, dbgVec_wf Frame.dbg_wf']
theorem PacketInitial.dbg_wf' (x : PacketInitial) : x.dbg.wf = true ∧ x.dbg.shown = true := ⟨x.dbg_wf, rfl⟩
theorem PacketInitial.dbg_inj (x y : PacketInitial) : x.dbg = y.dbg ↔ x = y := by
  cases x; cases y; inj_tac [PacketInitial.dbg, U160.dbg_inj, LongPacketHeader.dbg_inj, ShortPacketHeader.dbg_inj, dbgVec_inj Frame.dbg_inj]
theorem PacketZeroRtt.dbg_wf (x : PacketZeroRtt) : x.dbg.wf = true := by
  wf_tac [PacketZeroRtt.dbg, U160.dbg_wf, LongPacketHeader.dbg_wf, ShortPacketHeader.dbg_wf, dbgVec_wf Frame.dbg_wf']
theorem PacketZeroRtt.dbg_wf' (x : PacketZeroRtt) : x.dbg.wf = true ∧ x.dbg.shown = true := ⟨x.dbg_wf, rfl⟩
theorem PacketZeroRtt.dbg_inj (x y : PacketZeroRtt) : x.dbg = y.dbg ↔ x = y := by
  cases x; cases y; inj_tac [PacketZeroRtt.dbg, U160.dbg_inj, LongPacketHeader.dbg_inj, ShortPacketHeader.dbg_inj, dbgVec_inj Frame.dbg_inj]
theorem PacketHandshake.dbg_wf (x : PacketHandshake) : x.dbg.wf = true := by
  wf_tac [PacketHandshake.dbg, U160.dbg_wf, LongPacketHeader.dbg_wf, ShortPacketHeader.dbg_wf, dbgVec_wf Frame.dbg_wf']
theorem PacketHandshake.dbg_wf' (x : PacketHandshake) : x.dbg.wf = true ∧ x.dbg.shown = true := ⟨x.dbg_wf, rfl⟩
theorem PacketHandshake.dbg_inj (x y : PacketHandshake) : x.dbg = y.dbg ↔ x = y := by
  cases x; cases y; inj_tac [PacketHandshake.dbg, U160.dbg_inj, LongPacketHeader.dbg_inj, ShortPacketHeader.dbg_inj, dbgVec_inj Frame.dbg_inj]
theorem PacketRetry.dbg_wf (x : PacketRetry) : x.dbg.wf = true := by
  wf_tac [PacketRetry.dbg, U160.dbg_wf, LongPacketHeader.dbg_wf, ShortPacketHeader.dbg_wf, dbgVec_wf Frame.dbg_wf']
theorem PacketRetry.dbg_wf' (x : PacketRetry) : x.dbg.wf = true ∧ x.dbg.shown = true := ⟨x.dbg_wf, rfl⟩
theorem PacketRetry.dbg_inj (x y : PacketRetry) : x.dbg = y.dbg ↔ x = y := by
  cases x; cases y; inj_tac [PacketRetry.dbg, U160.dbg_inj, LongPacketHeader.dbg_inj, ShortPacketHeader.dbg_inj, dbgVec_inj Frame.dbg_inj]
theorem PacketOneRtt.dbg_wf (x : PacketOneRtt) : x.dbg.wf = true := by
  wf_tac [PacketOneRtt.dbg, U160.dbg_wf, LongPacketHeader.dbg_wf, ShortPacketHeader.dbg_wf, dbgVec_wf Frame.dbg_wf']
theorem PacketOneRtt.dbg_wf' (x : PacketOneRtt) : x.dbg.wf = true ∧ x.dbg.shown = true := ⟨x.dbg_wf, rfl⟩
theorem PacketOneRtt.dbg_inj (x y : PacketOneRtt) : x.dbg = y.dbg ↔ x = y := by
  cases x; cases y; inj_tac [PacketOneRtt.dbg, U160.dbg_inj, LongPacketHeader.dbg_inj, ShortPacketHeader.dbg_inj, dbgVec_inj Frame.dbg_inj]
theorem Packet.dbg_wf' (x : Packet) : x.dbg.wf = true ∧ x.dbg.shown = true := by
  cases x with
  | versionNegotiation x => exact ⟨tup1_wf (by decide) x.dbg_wf', rfl⟩
  | initial x => exact ⟨tup1_wf (by decide) x.dbg_wf', rfl⟩
  | zeroRtt x => exact ⟨tup1_wf (by decide) x.dbg_wf', rfl⟩
  | handshake x => exact ⟨tup1_wf (by decide) x.dbg_wf', rfl⟩
  | retry x => exact ⟨tup1_wf (by decide) x.dbg_wf', rfl⟩
  | oneRtt x => exact ⟨tup1_wf (by decide) x.dbg_wf', rfl⟩
theorem Packet.dbg_wf (x : Packet) : x.dbg.wf = true := x.dbg_wf'.1
theorem Packet.dbg_inj (x y : Packet) : x.dbg = y.dbg ↔ x = y := by
  cases x <;> cases y <;> inj_tac [Packet.dbg, PacketVersionNegotiation.dbg_inj, PacketInitial.dbg_inj, PacketZeroRtt.dbg_inj, PacketHandshake.dbg_inj, PacketRetry.dbg_inj, PacketOneRtt.dbg_inj]
/-- An error with a printable message. -/
def PlainError : Error → Prop
  | .internalError msg => ∀ c ∈ msg.toList, printable c = true
  | _ => True
theorem Error.dbg_wf' (x : Error) (h : PlainError x) : x.dbg.wf = true ∧ x.dbg.shown = true := by
  cases x with
  | noError => exact ⟨(by decide : isName "NoError" = true), rfl⟩
  | internalError msg => exact ⟨tup1_wf (x := .str _) (by decide) ⟨List.all_eq_true.2 h, rfl⟩, rfl⟩
  | connectionRefused => exact ⟨(by decide : isName "ConnectionRefused" = true), rfl⟩
  | flowControlError => exact ⟨(by decide : isName "FlowControlError" = true), rfl⟩
  | streamLimitError => exact ⟨(by decide : isName "StreamLimitError" = true), rfl⟩
  | streamStateError => exact ⟨(by decide : isName "StreamStateError" = true), rfl⟩
  | finalSizeError => exact ⟨(by decide : isName "FinalSizeError" = true), rfl⟩
  | frameEncodingError => exact ⟨(by decide : isName "FrameEncodingError" = true), rfl⟩
  | transportParameterError => exact ⟨(by decide : isName "TransportParameterError" = true), rfl⟩
  | connectionIdLimitError => exact ⟨(by decide : isName "ConnectionIdLimitError" = true), rfl⟩
  | protocolViolation => exact ⟨(by decide : isName "ProtocolViolation" = true), rfl⟩
  | invalidToken => exact ⟨(by decide : isName "InvalidToken" = true), rfl⟩
  | applicationError => exact ⟨(by decide : isName "ApplicationError" = true), rfl⟩
  | cryptoBufferExceeded => exact ⟨(by decide : isName "CryptoBufferExceeded" = true), rfl⟩
  | keyUpdateError => exact ⟨(by decide : isName "KeyUpdateError" = true), rfl⟩
  | aeadLimitReached => exact ⟨(by decide : isName "AeadLimitReached" = true), rfl⟩
  | noViablePath => exact ⟨(by decide : isName "NoViablePath" = true), rfl⟩
theorem Error.dbg_wf (x : Error) (h : PlainError x) : x.dbg.wf = true := (x.dbg_wf' h).1
theorem Error.dbg_inj (x y : Error) : x.dbg = y.dbg ↔ x = y := by
  cases x <;> cases y <;> inj_tac [Error.dbg]
end QuicSea
