import Verif.Props.Keyed
import Verif.Props.Identity
import Verif.Props.TransportParameters
/-
C98: which transport error code an error of this program carries.
-/

namespace Spec
/-- RFC 9000 §20.1. -/
def INTERNAL_ERROR : Nat := 0x01
def FRAME_ENCODING_ERROR : Nat := 0x07
end Spec

namespace QuicSea
open Spec

/-! ## where errors come from -/

/-- Every error of the reader, and every error item it leaves, satisfies `Q`, provided those of the stream do. -/
def Only (Q : Error → Prop) (m : Rd α) : Prop :=
  ∀ s : Stream, (∀ e, .error e ∈ s → Q e) → (∀ e, .error e ∈ (m s).2 → Q e) ∧ ∀ e, (m s).1 = .err e → Q e
/-- Every error of the outcome satisfies `Q`. -/
def OnlyOut (Q : Error → Prop) (o : Out α) : Prop := ∀ e, o = .err e → Q e

section
variable {Q : Error → Prop}

theorem Only.pure (a : α) : Only Q (Pure.pure a : Rd α) := fun _ h => ⟨h, nofun⟩
theorem Only.bind {m : Rd α} {f : α → Rd β} (h1 : Only Q m) (h2 : ∀ a, Only Q (f a)) : Only Q (m >>= f) := by
  intro s hs
  obtain ⟨a1, a2⟩ := h1 s hs
  rw [Rd.bind_apply]
  rcases hm : m s with ⟨o, s'⟩
  rw [hm] at a1 a2
  cases o with
  | ok a => exact h2 a s' a1
  | err e => exact ⟨a1, fun e' he => by cases he; exact a2 e rfl⟩
  | panic w => exact ⟨a1, nofun⟩
theorem Only.fail {e : Error} (h : Q e) : Only Q (Rd.fail e : Rd α) := fun _ hs => ⟨hs, fun e' he => by cases he; exact h⟩
theorem Only.lift {x : Out α} (h : OnlyOut Q x) : Only Q (Rd.lift x) := fun _ hs => ⟨hs, h⟩
theorem Only.ite {c : Prop} [Decidable c] {a b : Rd α} (ha : Only Q a) (hb : Only Q b) : Only Q (if c then a else b) := by split <;> assumption
theorem Only.whole {m : Rd α} (h : Only Q m) {s : Stream} (hs : ∀ e, .error e ∈ s → Q e) : OnlyOut Q (m s).1 := (h s hs).2
/-- A reader run on a copy of the stream. -/
theorem Only.copy {m : Rd α} {f : α → Rd β} (h1 : Only Q m) (h2 : ∀ a, Only Q (f a)) :
    Only Q (Rd.cloned >>= fun s => Rd.lift (m s).1 >>= f) := by
  intro s hs
  rw [Rd.bind_ok (Rd.cloned_apply s)]
  exact Only.bind (Only.lift (h1.whole hs)) h2 s hs
theorem OnlyOut.ok (a : α) : OnlyOut Q (.ok a : Out α) := nofun
theorem OnlyOut.panic (w : String) : OnlyOut Q (.panic w : Out α) := nofun
theorem OnlyOut.err {e : Error} (h : Q e) : OnlyOut Q (.err e : Out α) := fun _ he => by cases he; exact h
theorem OnlyOut.bind {x : Out α} {f : α → Out β} (h1 : OnlyOut Q x) (h2 : ∀ a, OnlyOut Q (f a)) : OnlyOut Q (x >>= f) := by
  cases x with
  | ok a => exact h2 a
  | err e => intro e' he; cases he; exact h1 e rfl
  | panic w => exact nofun
theorem OnlyOut.ite {c : Prop} [Decidable c] {a b : Out α} (ha : OnlyOut Q a) (hb : OnlyOut Q b) : OnlyOut Q (if c then a else b) := by split <;> assumption
theorem OnlyOut.unwrap (x : Out α) : OnlyOut Q x.unwrap := by cases x <;> exact nofun
theorem onlyOut_bytes {m : Rd α} (h : Only Q m) (bs : Bytes) : OnlyOut Q (m (makeResultStream bs)).1 :=
  h.whole fun e he => by simp [makeResultStream] at he

variable (hQ : ∀ msg, Q (.internalError msg))
include hQ

theorem nextOr_only (msg) : Only Q (nextOr msg) := by
  intro s hs
  match s, hs with
  | [], _ => exact ⟨by simp [nextOr], fun e he => by cases he; exact hQ msg⟩
  | .ok b :: s', hs => exact ⟨fun e he => hs e (List.mem_cons_of_mem _ he), nofun⟩
  | .error e :: s', hs => exact ⟨fun e he => hs e (List.mem_cons_of_mem _ he), fun e' he => by cases he; exact hs e List.mem_cons_self⟩
theorem readArray_only (msg) (n : Nat) : Only Q (readArray msg n) := by
  induction n with
  | zero => exact Only.pure _
  | succ n ih => exact (nextOr_only hQ msg).bind fun _ => ih.bind fun _ => Only.pure _
theorem u8_only : Only Q u8FromDatagram := by
  refine (readArray_only hQ _ _).bind fun bs => Only.bind (Only.lift ?_) fun _ => Only.pure _
  unfold decodeU8; split
  · exact .err (hQ _)
  · exact .ok _
theorem uint_only (size : Nat) (msg) : Only Q (uintFromDatagram size msg) := by
  refine (readArray_only hQ _ _).bind fun bs => Only.bind (Only.lift ?_) fun _ => Only.pure _
  exact .ite (.err (hQ _)) (.ok _)
theorem u160Loop_only (msg) (n : Nat) : ∀ (a : U32) (b : U128), Only Q (u160Loop msg n a b) := by
  induction n with
  | zero => intro a b; exact Only.pure _
  | succ n ih => intro a b; exact (nextOr_only hQ msg).bind fun _ => ih _ _
theorem cid_only (n : U8) : Only Q (varU160FromStream n) := u160Loop_only hQ _ _ _ _
theorem varIntLoop_only (n : Nat) : ∀ r, Only Q (varIntLoop n r) := by
  induction n with
  | zero => intro r; exact Only.pure _
  | succ n ih => intro r; exact (nextOr_only hQ _).bind fun _ => ih _
theorem varInt_only : Only Q varIntFromStream := (nextOr_only hQ _).bind fun _ => varIntLoop_only hQ _ _
theorem varIntWithBytesLoop_only (n : Nat) : ∀ r acc, Only Q (varIntWithBytesLoop n r acc) := by
  induction n with
  | zero => intro r acc; exact Only.pure _
  | succ n ih => intro r acc; exact (nextOr_only hQ _).bind fun _ => ih _ _
theorem varIntWithBytes_only : Only Q varIntWithBytesFromStream := (nextOr_only hQ _).bind fun _ => varIntWithBytesLoop_only hQ _ _ _
theorem varBytes_only (n : Nat) : Only Q (varBytesFromStream n) := by
  induction n with
  | zero => exact Only.pure _
  | succ n ih => exact (nextOr_only hQ _).bind fun _ => ih.bind fun _ => Only.pure _
omit hQ in
theorem allBytes_only : Only Q allBytesFromStream := by
  intro s
  induction s with
  | nil => intro _; exact ⟨nofun, nofun⟩
  | cons x s ih =>
    intro hs
    cases x with
    | error e => exact ⟨fun e' he => hs e' (List.mem_cons_of_mem _ he), fun e' he => by cases he; exact hs e List.mem_cons_self⟩
    | ok b =>
      obtain ⟨a1, a2⟩ := ih fun e he => hs e (List.mem_cons_of_mem _ he)
      rw [allBytesFromStream]
      rcases hm : allBytesFromStream s with ⟨o, s'⟩
      rw [hm] at a1 a2
      cases o with
      | ok a => exact ⟨a1, nofun⟩
      | err e => exact ⟨a1, fun e' he => by cases he; exact a2 e rfl⟩
      | panic w => exact ⟨a1, nofun⟩
theorem ackRange_only : Only Q AckRange.fromDatagram := (varInt_only hQ).bind fun _ => (varInt_only hQ).bind fun _ => Only.pure _
theorem ranges_only (n : Nat) : Only Q (FrameAck.rangesFromDatagram n) := by
  induction n with
  | zero => exact Only.pure _
  | succ n ih => exact (ackRange_only hQ).bind fun _ => ih.bind fun _ => Only.pure _
theorem ecn_only : Only Q EcnCounts.fromDatagram :=
  (varInt_only hQ).bind fun _ => (varInt_only hQ).bind fun _ => (varInt_only hQ).bind fun _ => Only.pure _
theorem body_only (tb : U8) : Only Q (deserializeFrameBody tb) := by
  simp only [deserializeFrameBody, FrameAck.fromDatagram, FrameResetStream.fromDatagram, FrameStopSending.fromDatagram,
    FrameCrypto.fromDatagram, FrameNewToken.fromDatagram, stream_fromDatagram_eq, FrameMaxData.fromDatagram,
    FrameMaxStreamData.fromDatagram, FrameMaxStreams.fromDatagram, FrameDataBlocked.fromDatagram,
    FrameStreamDataBlocked.fromDatagram, FrameStreamsBlocked.fromDatagram, FrameNewConnectionId.fromDatagram,
    FrameRetireConnectionId.fromDatagram, FramePathChallenge.fromDatagram, FramePathResponse.fromDatagram,
    FrameConnectionClose.fromDatagram, u64FromDatagram, u128FromDatagram]
  repeat' first
    | refine Only.ite ?_ ?_ | exact Only.pure _ | exact Only.fail (hQ _) | exact varInt_only hQ | exact varBytes_only hQ _ | exact allBytes_only
    | exact u8_only hQ | exact uint_only hQ _ _ | exact cid_only hQ _ | exact ranges_only hQ _ | exact ecn_only hQ
    | refine Only.bind ?_ fun _ => ?_ | split
theorem frame_only : Only Q deserializeFrame := (varInt_only hQ).bind fun _ => body_only hQ _
theorem framesLoop_only : ∀ n, Only Q (deserializeFramesLoop n) := by
  intro n
  induction n with
  | zero =>
    intro s hs
    cases s with
    | nil => exact ⟨hs, nofun⟩
    | cons x s => exact ⟨hs, nofun⟩
  | succ n ih =>
    intro s hs
    cases s with
    | nil => exact ⟨hs, nofun⟩
    | cons x s =>
      obtain ⟨a1, a2⟩ := frame_only hQ (x :: s) hs
      show (∀ e, .error e ∈ (match deserializeFrame (x :: s) with
        | (.ok f, s') => match deserializeFramesLoop n s' with
          | (.ok fs, s'') => (Out.ok (f :: fs), s'')
          | r => r
        | (.err e, s') => (.err e, s')
        | (.panic w, s') => (.panic w, s') : Out (List Frame) × Stream).2 → Q e) ∧ ∀ e, (match deserializeFrame (x :: s) with
        | (.ok f, s') => match deserializeFramesLoop n s' with
          | (.ok fs, s'') => (Out.ok (f :: fs), s'')
          | r => r
        | (.err e, s') => (.err e, s')
        | (.panic w, s') => (.panic w, s') : Out (List Frame) × Stream).1 = .err e → Q e
      rcases hm : deserializeFrame (x :: s) with ⟨o, s'⟩
      rw [hm] at a1 a2
      cases o with
      | ok a =>
        obtain ⟨b1, b2⟩ := ih s' a1
        dsimp only
        rcases hm2 : deserializeFramesLoop n s' with ⟨o2, s2⟩
        rw [hm2] at b1 b2
        cases o2 with
        | ok a => exact ⟨b1, nofun⟩
        | err e => exact ⟨b1, b2⟩
        | panic w => exact ⟨b1, b2⟩
      | err e => exact ⟨a1, fun e' he => by cases he; exact a2 e rfl⟩
      | panic w => exact ⟨a1, nofun⟩
theorem frames_only : Only Q deserializeFrames := fun s hs => framesLoop_only hQ _ s hs

/-! packets -/
omit hQ in
theorem packetType_only (h : LongPacketHeader) : OnlyOut Q h.packetType := by
  unfold LongPacketHeader.packetType
  repeat' first | refine OnlyOut.ite ?_ ?_ | exact .ok _ | exact .panic _
theorem long_only (hb : U8) : Only Q (LongPacketHeader.fromStream hb) := by
  unfold LongPacketHeader.fromStream u32FromDatagram
  refine Only.bind (uint_only hQ _ _) fun v => ?_
  refine Only.bind ?_ fun x => Only.bind (Only.lift (packetType_only _)) fun _ => Only.pure _
  repeat' first
    | refine Only.ite ?_ ?_ | exact Only.pure _ | exact Only.fail (hQ _) | exact varBytes_only hQ _
    | exact u8_only hQ | exact cid_only hQ _ | refine Only.bind ?_ fun _ => ?_
theorem short_only (hb : U8) : Only Q (ShortPacketHeader.fromStream hb) := by
  unfold ShortPacketHeader.fromStream fixedLenDcidFromStream u64FromDatagram
  exact Only.bind (Only.bind (uint_only hQ _ _) fun _ => Only.pure _) fun _ => Only.pure _
theorem nextHeader_only : Only Q nextHeaderFromStream :=
  (nextOr_only hQ _).bind fun _ => .ite ((long_only hQ _).bind fun _ => .pure _) ((short_only hQ _).bind fun _ => .pure _)
theorem chunks_only (bs : Bytes) : OnlyOut Q (chunksToU32 bs) := by
  match bs with
  | [] => exact .ok _
  | a :: b :: c :: d :: rest =>
    rw [chunksToU32]
    exact .bind (onlyOut_bytes (uint_only hQ _ _) _) fun _ => .bind (chunks_only rest) fun _ => .ok _
  | [a] => exact .bind (onlyOut_bytes (uint_only hQ _ _) _) fun _ => .ok _
  | [a, b] => exact .bind (onlyOut_bytes (uint_only hQ _ _) _) fun _ => .ok _
  | [a, b, c] => exact .bind (onlyOut_bytes (uint_only hQ _ _) _) fun _ => .ok _
theorem vn_only : Only Q PacketVersionNegotiation.fromStream :=
  (u8_only hQ).bind fun _ => (long_only hQ _).bind fun _ => allBytes_only.bind fun _ =>
    .ite (.fail (hQ _)) ((Only.lift (chunks_only hQ _)).bind fun _ => .pure _)
theorem xorPn_only (b : Bytes) (m : Mask) : OnlyOut Q (xorPnProtection b m) := .ite (.err (hQ _)) (.ok _)
omit hQ in
theorem sliceTo_only (b : List α) (n : Nat) : OnlyOut Q (sliceTo b n) := .ite (.ok _) (.panic _)
omit hQ in
theorem sliceFrom_only (b : List α) (n : Nat) : OnlyOut Q (sliceFrom b n) := .ite (.ok _) (.panic _)
omit hQ in
theorem addU64_only (bp : Profile) (a b : U64) : OnlyOut Q (addU64 bp a b) := by
  unfold addU64; split
  · exact .ok _
  · cases bp
    · exact .panic _
    · exact .ok _
omit hQ in
theorem subUsize_only (bp : Profile) (a b : Nat) : OnlyOut Q (subUsize bp a b) := by
  unfold subUsize; split
  · exact .ok _
  · cases bp
    · exact .panic _
    · exact .ok _
omit hQ in
theorem reconstruct_only (bp : Profile) (c : Connection) (sp : PnSpace) (b : Bytes) : OnlyOut Q (c.reconstructRemotePn bp sp b) := by
  unfold Connection.reconstructRemotePn
  refine .ite (.panic _) ?_
  dsimp only
  split
  · exact .ite (addU64_only _ _ _) (.bind (addU64_only _ _ _) fun _ => addU64_only _ _ _)
  · exact .ok _
omit hQ in
theorem hpMask_only (P : Prims) (k s : Bytes) : OnlyOut Q (hpMaskAes128Ecb P k s) := by
  unfold hpMaskAes128Ecb; split
  · exact .panic _
  · exact .ok _
  · exact .panic _
theorem remoteSecrets_only (c : Connection) (sp : PnSpace) : OnlyOut Q (c.remoteSecrets sp) := by
  unfold Connection.remoteSecrets; split
  · exact .ok _
  · exact .err (hQ _)
theorem localSecrets_only (c : Connection) (sp : PnSpace) : OnlyOut Q (c.localSecrets sp) := by
  unfold Connection.localSecrets; split
  · exact .ok _
  · exact .err (hQ _)
omit hQ in
theorem Only.lift_bind_of {x : Out α} {f : α → Rd β} (h1 : OnlyOut Q x) (h2 : ∀ a, x = .ok a → Only Q (f a)) : Only Q (Rd.lift x >>= f) := by
  cases x with
  | ok a => intro s hs; rw [Rd.bind_ok (Rd.lift_apply _ _)]; exact h2 a rfl s hs
  | err e => intro s hs; exact ⟨hs, fun e' he => by cases he; exact h1 e rfl⟩
  | panic w => intro s hs; exact ⟨hs, nofun⟩
omit hQ in
theorem OnlyOut.bind_of {x : Out α} {f : α → Out β} (h1 : OnlyOut Q x) (h2 : ∀ a, x = .ok a → OnlyOut Q (f a)) : OnlyOut Q (x >>= f) := by
  cases x with
  | ok a => exact h2 a rfl
  | err e => intro e' he; cases he; exact h1 e rfl
  | panic w => exact nofun
theorem mask_only (P : Prims) (k : Keys) : Only Q (secretsOf P k).getHeaderProtectionMask :=
  (varBytes_only hQ _).bind fun _ => .lift (hpMask_only _ _ _)
theorem open_only (P : Prims) (k : Keys) (x ad : Bytes) (pn : U64) : OnlyOut Q ((secretsOf P k).decryptPayload x (some ad) pn) := by
  show OnlyOut Q (internalDecryptAes128Gcm P k.key (packetNonce k.iv pn) ad x)
  unfold internalDecryptAes128Gcm
  refine .ite (.panic _) ?_
  dsimp only
  split
  · exact .ok _
  · exact .err (hQ _)
theorem seal_only (P : Prims) (k : Keys) (x ad : Bytes) (pn : U64) : OnlyOut Q ((secretsOf P k).encryptPayload x (some ad) pn) := by
  show OnlyOut Q (internalEncryptAes128Gcm P k.key (packetNonce k.iv pn) ad x)
  unfold internalEncryptAes128Gcm
  split
  · exact .err (hQ _)
  · exact .ok _

/-- The keys the peer's packets are opened with, where there are any, are AES keys. -/
theorem remoteMask_only {P : Prims} {c : Connection} {sp : PnSpace} (hk : KeysOrNone P c sp) : Only Q (c.getRemoteHpMask sp) := by
  refine Only.lift_bind_of (remoteSecrets_only hQ c sp) fun a ha => ?_
  rcases hk with ⟨k, hk⟩ | ⟨e, hk⟩
  · rw [ha] at hk; cases hk; exact mask_only hQ P k
  · rw [ha] at hk; cases hk
theorem decrypt_only {P : Prims} {c : Connection} {sp : PnSpace} (hk : KeysOrNone P c sp) (x ad : Bytes) (pn : U64) :
    OnlyOut Q (c.decryptRemotePayload sp x ad pn) := by
  refine OnlyOut.bind_of (remoteSecrets_only hQ c sp) fun a ha => ?_
  rcases hk with ⟨k, hk⟩ | ⟨e, hk⟩
  · rw [ha] at hk; cases hk; exact open_only hQ P k _ _ _
  · rw [ha] at hk; cases hk
theorem tail_only {P : Prims} {bp : Profile} {c : Connection} {sp : PnSpace} {whole : Bool} {lenOf : Mask → Out Nat} {hdr : Mask → Out Bytes}
    {payload : Nat → Rd Bytes} {mid : Bytes} (hk : KeysOrNone P c sp) (h1 : ∀ m, OnlyOut Q (lenOf m)) (h2 : ∀ m, OnlyOut Q (hdr m))
    (h3 : ∀ n, Only Q (payload n)) : Only Q (tail bp c sp whole lenOf hdr payload mid) := by
  unfold tail
  refine Only.bind (varBytes_only hQ _) fun _ => Only.copy (remoteMask_only hQ hk) fun m => ?_
  refine Only.bind (.lift (h1 m)) fun _ => Only.bind (.lift (xorPn_only hQ _ _)) fun _ => Only.bind (.lift (sliceTo_only _ _)) fun _ => ?_
  refine Only.bind (.lift (reconstruct_only _ _ _ _)) fun _ => Only.bind (h3 _) fun _ => ?_
  refine Only.bind (.lift (h2 m)) fun _ => Only.bind (.lift (decrypt_only hQ hk _ _ _)) fun _ => ?_
  exact Only.bind (.lift (onlyOut_bytes (frames_only hQ) _)) fun _ => .pure _
theorem lenBytes_only (bp : Profile) (L : U64) (n : Nat) : Only Q (lenBytes bp L n) :=
  Only.bind (.lift (subUsize_only _ _ _)) fun _ => varBytes_only hQ _
theorem longPn_only (h : LongPacketHeader) : OnlyOut Q h.packetNumberLength := .ite (.err (hQ _)) (.ok _)
theorem shortPn_only (h : ShortPacketHeader) : OnlyOut Q h.packetNumberLength := .ite (.err (hQ _)) (.ok _)
omit hQ in
theorem varCid_only (x : U160) (n : Nat) : OnlyOut Q (x.toVarBytes n) := .ite (.panic _) (.ok _)
omit hQ in
theorem longBytes_only (h : LongPacketHeader) : OnlyOut Q h.toBytes := .bind (varCid_only _ _) fun _ => .bind (varCid_only _ _) fun _ => .ok _
omit hQ in
theorem shortBytes_only (h : ShortPacketHeader) : OnlyOut Q h.toBytes := .bind (varCid_only _ _) fun _ => .ok _
theorem initial_only {P : Prims} {bp : Profile} {c : Connection} (hk : KeysOrNone P c .initial) : Only Q (PacketInitial.fromStream bp c) := by
  rw [initial_eq]
  exact (u8_only hQ).bind fun _ => (long_only hQ _).bind fun _ => (varIntWithBytes_only hQ).bind fun _ => (varBytes_only hQ _).bind fun _ =>
    (varIntWithBytes_only hQ).bind fun _ => (tail_only hQ hk (fun _ => longPn_only hQ _) (fun _ => longBytes_only _) (lenBytes_only hQ _ _)).bind
      fun _ => .pure _
theorem handshake_only {P : Prims} {bp : Profile} {c : Connection} (hk : KeysOrNone P c .handshake) : Only Q (PacketHandshake.fromStream bp c) := by
  rw [handshake_eq]
  exact (u8_only hQ).bind fun _ => (long_only hQ _).bind fun _ =>
    (varIntWithBytes_only hQ).bind fun _ => (tail_only hQ hk (fun _ => longPn_only hQ _) (fun _ => longBytes_only _) (lenBytes_only hQ _ _)).bind
      fun _ => .pure _
theorem zeroRtt_only {P : Prims} {bp : Profile} {c : Connection} (hk : KeysOrNone P c .application) : Only Q (PacketZeroRtt.fromStream bp c) := by
  rw [zeroRtt_eq]
  exact (u8_only hQ).bind fun _ => (long_only hQ _).bind fun _ =>
    (varIntWithBytes_only hQ).bind fun _ => (tail_only hQ hk (fun _ => longPn_only hQ _) (fun _ => longBytes_only _) (lenBytes_only hQ _ _)).bind
      fun _ => .pure _
theorem oneRtt_only {P : Prims} {bp : Profile} {c : Connection} (hk : KeysOrNone P c .application) : Only Q (PacketOneRtt.fromStream bp c) := by
  rw [oneRtt_eq]
  exact (u8_only hQ).bind fun _ => (short_only hQ _).bind fun _ =>
    (tail_only hQ hk (fun _ => shortPn_only hQ _) (fun _ => shortBytes_only _) (fun _ => allBytes_only)).bind fun _ => .pure _
theorem decodeNext_only {P : Prims} {bp : Profile} {c : Connection} (hk : ∀ sp, KeysOrNone P c sp) : Only Q (decodeNextPacket bp c) := by
  intro s hs
  unfold decodeNextPacket
  rw [Rd.bind_ok (Rd.cloned_apply s)]
  refine Only.bind (.lift (.unwrap _)) (fun h => ?_) s hs
  cases h with
  | short h => exact (oneRtt_only hQ (hk _)).bind fun _ => .pure _
  | long h =>
    refine Only.bind (.lift (packetType_only _)) fun t => ?_
    cases t with
    | handshake => exact (handshake_only hQ (hk _)).bind fun _ => .pure _
    | initial => exact (initial_only hQ (hk _)).bind fun _ => .pure _
    | zeroRtt => exact (zeroRtt_only hQ (hk _)).bind fun _ => .pure _
    | retry => exact Only.bind (.lift (.panic _)) fun _ => .pure _
    | versionNegotiation => exact (vn_only hQ).bind fun _ => .pure _
    | oneRtt => exact .lift (.panic _)
    | statelessReset => exact .lift (.panic _)
theorem packetsLoop_only {P : Prims} {bp : Profile} {c : Connection} (hk : ∀ sp, KeysOrNone P c sp) : ∀ n, Only Q (decodePacketsLoop bp c n) := by
  intro n
  induction n with
  | zero =>
    intro s hs
    cases s with
    | nil => exact ⟨hs, nofun⟩
    | cons x s => exact ⟨hs, nofun⟩
  | succ n ih =>
    intro s hs
    cases s with
    | nil => exact ⟨hs, nofun⟩
    | cons x s =>
      have e := decodePacketsLoop.eq_3 bp c (x :: s) n (by simp)
      obtain ⟨a1, a2⟩ := decodeNext_only (bp := bp) hQ hk (x :: s) hs
      rw [e]
      rcases hm : decodeNextPacket bp c (x :: s) with ⟨o, s'⟩
      rw [hm] at a1 a2
      cases o with
      | ok a =>
        obtain ⟨b1, b2⟩ := ih s' a1
        dsimp only
        rcases hm2 : decodePacketsLoop bp c n s' with ⟨o2, s2⟩
        rw [hm2] at b1 b2
        cases o2 with
        | ok a => exact ⟨b1, nofun⟩
        | err e => exact ⟨b1, b2⟩
        | panic w => exact ⟨b1, b2⟩
      | err e => exact ⟨a1, fun e' he => by cases he; exact a2 e rfl⟩
      | panic w => exact ⟨a1, nofun⟩
theorem packets_only {P : Prims} {bp : Profile} {c : Connection} (hk : ∀ sp, KeysOrNone P c sp) : Only Q (decodePackets bp c) :=
  fun s hs => packetsLoop_only hQ hk _ s hs

/-! encoders -/
theorem encodeVarInt_only (x : U64) : OnlyOut Q (encodeVarInt x) := by
  unfold encodeVarInt
  repeat' first | exact .ok _ | exact .err (hQ _) | refine OnlyOut.ite ?_ ?_
theorem ecnBytes_only (x : EcnCounts) : OnlyOut Q x.toBytes := by
  unfold EcnCounts.toBytes
  repeat' first | exact .ok _ | exact encodeVarInt_only hQ _ | refine OnlyOut.bind ?_ fun _ => ?_
theorem rangesBytes_only (x : List AckRange) : OnlyOut Q (FrameAck.rangesToBytes x) := by
  induction x with
  | nil => exact .ok _
  | cons r rs ih =>
    refine OnlyOut.bind ?_ fun _ => ih.bind fun _ => .ok _
    exact (encodeVarInt_only hQ _).bind fun _ => (encodeVarInt_only hQ _).bind fun _ => .ok _
theorem frameBytes_only (e : Bool) (f : Frame) : OnlyOut Q (f.toBytes e) := by
  cases f <;>
    simp only [Frame.toBytes, FrameAck.toBytes, FrameResetStream.toBytes, FrameStopSending.toBytes, FrameCrypto.toBytes, FrameNewToken.toBytes,
      FrameStream.toBytes, FrameMaxData.toBytes, FrameMaxStreamData.toBytes, FrameMaxStreams.toBytes, FrameDataBlocked.toBytes,
      FrameStreamDataBlocked.toBytes, FrameStreamsBlocked.toBytes, FrameNewConnectionId.toBytes, FrameRetireConnectionId.toBytes,
      FrameConnectionClose.toBytes] <;>
  repeat' first
    | exact .ok _ | exact encodeVarInt_only hQ _ | exact rangesBytes_only hQ _ | exact ecnBytes_only hQ _ | exact varCid_only _ _
    | refine OnlyOut.ite ?_ ?_ | refine OnlyOut.bind ?_ fun _ => ?_ | split
theorem framesBytes_only (fs : List Frame) (e : Bool) : OnlyOut Q (serializeFrames fs e) := by
  induction fs with
  | nil => exact .ok _
  | cons f fs ih => exact (frameBytes_only hQ _ f).bind fun _ => ih.bind fun _ => .ok _
theorem parameter_only (p : TransportParameter) : OnlyOut Q p.serialize := by
  refine (encodeVarInt_only hQ _).bind fun _ => OnlyOut.bind ?_ fun _ => (encodeVarInt_only hQ _).bind fun _ => .ok _
  cases p <;> first | exact .ok _ | exact encodeVarInt_only hQ _

/-! connections -/
theorem expand_only (P : Prims) (a b c : Bytes) (n : Nat) : OnlyOut Q (hkdfExpandLabelSha256 P a b c n) := by
  unfold hkdfExpandLabelSha256
  refine .ite (.bind ?_ fun _ => ?_) (.err (hQ _))
  · unfold getHkdfLabelInfo
    repeat' first | exact .ok _ | exact .err (hQ _) | refine OnlyOut.ite ?_ ?_
  · split
    · exact .ok _
    · exact .err (hQ _)
theorem fromInitial_only (P : Prims) (srv : Bool) (cid : Bytes) (v : Version) : OnlyOut Q (Secrets.fromInitial P srv cid v) := by
  refine OnlyOut.bind (expand_only hQ P _ _ _ _) fun _ => ?_
  exact OnlyOut.bind (expand_only hQ P _ _ _ _) fun _ => OnlyOut.bind (OnlyOut.bind (expand_only hQ P _ _ _ _) fun _ => .ok _) fun _ =>
    OnlyOut.bind (expand_only hQ P _ _ _ _) fun _ => .ok _
theorem connection_only (P : Prims) (srv : Bool) (v : Version) (d : U160) (n : Nat) : OnlyOut Q (Connection.new P srv v d n) :=
  (varCid_only _ _).bind fun _ => (fromInitial_only hQ P _ _ _).bind fun _ => (varCid_only _ _).bind fun _ => (fromInitial_only hQ P _ _ _).bind
    fun _ => .ok _
theorem truncate_only (pn : U64) (a : Option U64) : OnlyOut Q (truncatePn pn a) := by
  unfold truncatePn
  split
  · exact .ite (.err (hQ _)) (.ok _)
  · refine .ite (.err (hQ _)) (OnlyOut.bind ?_ fun _ => sliceFrom_only _ _)
    exact .ite (.err (hQ _)) (.ok _)
theorem nextPn_only (bp : Profile) (c : Connection) (sp : PnSpace) : OnlyOut Q (c.getNextPn bp sp).1 := by
  have h := addU64_only (Q := Q) bp (c.pnInfo sp).nextPn 1
  unfold Connection.getNextPn
  dsimp only
  cases e : addU64 bp (c.pnInfo sp).nextPn 1 with
  | ok n => exact (truncate_only hQ _ _).bind fun _ => .ok _
  | err w => rw [e] at h; exact .err (h w rfl)
  | panic w => exact .panic _
theorem header_only (c : Connection) (b : U8) : OnlyOut Q (LongPacketHeader.fromConnection c b) := by
  refine OnlyOut.bind ?_ fun _ => .ok _
  unfold Connection.getScid
  split
  · exact .ok _
  · exact .err (hQ _)
theorem newInitial_only (bp : Profile) (fs : List Frame) (t : Option Bytes) (c : Connection) : OnlyOut Q (PacketInitial.new bp fs t c).1 := by
  have h := nextPn_only hQ bp c .initial
  unfold PacketInitial.new
  rcases e : c.getNextPn bp .initial with ⟨o, c'⟩
  rw [e] at h
  cases o with
  | ok n => exact .ite (.err (hQ _)) ((header_only hQ _ _).bind fun _ => .ok _)
  | err w => exact .err (h w rfl)
  | panic w => exact .panic _
theorem newHandshake_only (bp : Profile) (fs : List Frame) (c : Connection) : OnlyOut Q (PacketHandshake.new bp fs c).1 := by
  have h := nextPn_only hQ bp c .handshake
  unfold PacketHandshake.new
  rcases e : c.getNextPn bp .handshake with ⟨o, c'⟩
  rw [e] at h
  cases o with
  | ok n => exact .ite (.err (hQ _)) ((header_only hQ _ _).bind fun _ => .ok _)
  | err w => exact .err (h w rfl)
  | panic w => exact .panic _

/-- The keys this side protects its packets with are absent, or AES keys as `Secrets::new` makes them. -/
def LocalKeysOrNone (P : Prims) (c : Connection) (sp : PnSpace) : Prop :=
  (∃ k, c.localSecrets sp = .ok (secretsOf P k)) ∨ ∃ e, c.localSecrets sp = .err e
theorem localMask_only {P : Prims} {c : Connection} {sp : PnSpace} (hk : LocalKeysOrNone P c sp) : Only Q (c.getLocalHpMask sp) := by
  refine Only.lift_bind_of (localSecrets_only hQ c sp) fun a ha => ?_
  rcases hk with ⟨k, hk⟩ | ⟨e, hk⟩
  · rw [ha] at hk; cases hk; exact mask_only hQ P k
  · rw [ha] at hk; cases hk
theorem encrypt_only {P : Prims} {c : Connection} {sp : PnSpace} (hk : LocalKeysOrNone P c sp) (x ad : Bytes) (pn : U64) :
    OnlyOut Q (c.encryptLocalPayload sp x ad pn) := by
  refine OnlyOut.bind_of (localSecrets_only hQ c sp) fun a ha => ?_
  rcases hk with ⟨k, hk⟩ | ⟨e, hk⟩
  · rw [ha] at hk; cases hk; exact seal_only hQ P k _ _ _
  · rw [ha] at hk; cases hk
theorem initialBytes_only {P : Prims} {c : Connection} (hk : LocalKeysOrNone P c .initial) (p : PacketInitial) : OnlyOut Q (p.serialize c) :=
  (framesBytes_only hQ _ _).bind fun _ => (longPn_only hQ _).bind fun _ => ((localSecrets_only hQ _ _).bind fun _ => .ok _).bind fun _ =>
    (encodeVarInt_only hQ _).bind fun _ => (encodeVarInt_only hQ _).bind fun _ => (longBytes_only _).bind fun _ =>
    (encrypt_only hQ hk _ _ _).bind fun _ => (sliceFrom_only _ _).bind fun _ => (onlyOut_bytes (localMask_only hQ hk) _).bind fun _ =>
    (xorPn_only hQ _ _).bind fun _ => (longBytes_only _).bind fun _ => .ok _
theorem handshakeBytes_only {P : Prims} {c : Connection} (hk : LocalKeysOrNone P c .handshake) (p : PacketHandshake) : OnlyOut Q (p.serialize c) :=
  (framesBytes_only hQ _ _).bind fun _ => (longPn_only hQ _).bind fun _ => ((localSecrets_only hQ _ _).bind fun _ => .ok _).bind fun _ =>
    (encodeVarInt_only hQ _).bind fun _ => (longBytes_only _).bind fun _ =>
    (encrypt_only hQ hk _ _ _).bind fun _ => (sliceFrom_only _ _).bind fun _ => (onlyOut_bytes (localMask_only hQ hk) _).bind fun _ =>
    (xorPn_only hQ _ _).bind fun _ => (longBytes_only _).bind fun _ => .ok _

/-! the socket -/
theorem route_only (k : Sock) (d : Datagram) : OnlyOut Q (k.routeDatagram d).1 := by
  have h := onlyOut_bytes (nextHeader_only hQ) d.data
  unfold Sock.routeDatagram
  cases e : (nextHeaderFromStream (makeResultStream d.data)).1 with
  | ok x =>
    dsimp only
    split
    · exact .ok _
    · exact .err (hQ _)
  | err w => rw [e] at h; exact .err (h w rfl)
  | panic w => exact .panic _
theorem decoded_only {P : Prims} {bp : Profile} {k : Sock} (hk : ∀ key x, k.streams key = some x → ∀ sp, KeysOrNone P x.connection sp) (d : Datagram) :
    OnlyOut Q (k.packetsFromDatagram bp d).1 := by
  have h := onlyOut_bytes (nextHeader_only hQ) d.data
  unfold Sock.packetsFromDatagram
  dsimp only
  cases e : (nextHeaderFromStream (makeResultStream d.data)).1 with
  | ok x =>
    dsimp only
    cases e2 : k.streams x.getDestinationId with
    | none => exact .err (hQ _)
    | some y =>
      dsimp only
      have h2 := onlyOut_bytes (packets_only (bp := bp) hQ (hk _ _ e2)) d.data
      cases e3 : (decodePackets bp y.connection (makeResultStream d.data)).1 with
      | ok r => exact .ok _
      | err w => rw [e3] at h2; exact .err (h2 w rfl)
      | panic w => exact .panic _
  | err w => rw [e] at h; exact .err (h w rfl)
  | panic w => exact .panic _
end

/-! ## C98 -/

/-- Carries the code INTERNAL_ERROR. -/
private abbrev Internal (e : Error) : Prop := e.toErrorByte.toNat = Spec.INTERNAL_ERROR
private theorem internal_code : ∀ msg, Internal (.internalError msg) := fun _ => rfl

/-- C98, as RFC 9000 asks (§12.4, §20.1): a payload that is refused is refused with FRAME_ENCODING_ERROR. -/
def C98Statement : Prop := ∀ (bs : Bytes) (e : Error), (deserializeFrames (makeResultStream bs)).1 = .err e → e.toErrorByte.toNat = Spec.FRAME_ENCODING_ERROR
/-- C98 fails: a payload of one frame of the unknown type 0x1f is refused with INTERNAL_ERROR. -/
theorem C98_false : ¬ C98Statement := by
  intro h
  have := h [0x1f] (.internalError "Invalid type byte") (by decide +kernel)
  exact absurd this (by decide)
/-- C98 fails for every payload: whatever is refused is refused with INTERNAL_ERROR. -/
theorem C98_always_internal (bs : Bytes) (e : Error) (h : (deserializeFrames (makeResultStream bs)).1 = .err e) :
    e.toErrorByte.toNat = Spec.INTERNAL_ERROR :=
  onlyOut_bytes (frames_only (Q := Internal) internal_code) bs e h
/-- C98 fails for the unknown type of frame the RFC names in §12.4: whatever frames come first, and whatever follows. -/
theorem C98_unknown_type (fs : List Frame) (bs tb rest : Bytes) (t : Nat) (hw : FramesWire fs bs) (hp : ∀ f ∈ fs, Plain f) (ht : IsVarInt tb t)
    (h : 0x1e < t % 256) : ∃ e, (deserializeFrames (makeResultStream (bs ++ (tb ++ rest)))).1 = .err e ∧ e.toErrorByte.toNat = Spec.INTERNAL_ERROR := by
  refine ⟨.internalError "Invalid type byte", ?_, rfl⟩
  rw [← List.append_assoc, show makeResultStream (bs ++ tb ++ rest) = makeResultStream (bs ++ tb) ++ makeResultStream rest from List.map_append ..,
    C15_payload_rejected_partial fs bs tb t _ hw hp ht h]
/-- C98, the part that holds: an error out of a list of frames is one the stream already had, passed on as it is, or carries INTERNAL_ERROR; it never
carries the code of some other failure.
Missing for the full statement: FRAME_ENCODING_ERROR, which is never reported (`C98_always_internal`). -/
theorem C98_frames_partial (s : Stream) (e : Error) (h : (deserializeFrames s).1 = .err e) : .error e ∈ s ∨ e.toErrorByte.toNat = Spec.INTERNAL_ERROR :=
  (frames_only (Q := fun e => .error e ∈ s ∨ e.toErrorByte.toNat = Spec.INTERNAL_ERROR) (fun _ => .inr rfl) s fun _ h => .inl h).2 e h
/-- C98, the part that holds, for packet headers.
Missing for the full statement: as in `C98_frames_partial`. -/
theorem C98_header_partial (s : Stream) (e : Error) (h : (nextHeaderFromStream s).1 = .err e) : .error e ∈ s ∨ e.toErrorByte.toNat = Spec.INTERNAL_ERROR :=
  (nextHeader_only (Q := fun e => .error e ∈ s ∨ e.toErrorByte.toNat = Spec.INTERNAL_ERROR) (fun _ => .inr rfl) s fun _ h => .inl h).2 e h
/-- C98, the part that holds, for the packets of a datagram, on every connection, with whatever keys.
Missing for the full statement: as in `C98_frames_partial`. -/
theorem C98_packets_partial (P : Prims) (bp : Profile) (c : Connection) (hk : ∀ sp, KeysOrNone P c sp) (s : Stream) (e : Error)
    (h : (decodePackets bp c s).1 = .err e) : .error e ∈ s ∨ e.toErrorByte.toNat = Spec.INTERNAL_ERROR :=
  (packets_only (Q := fun e => .error e ∈ s ∨ e.toErrorByte.toNat = Spec.INTERNAL_ERROR) (fun _ => .inr rfl) hk s fun _ h => .inl h).2 e h
/-- C98, the part that holds, for everything that writes: frames, parameters, packets.
Missing for the full statement: as in `C98_frames_partial`. -/
theorem C98_writers_partial (P : Prims) (bp : Profile) (c : Connection) (hk : ∀ sp, LocalKeysOrNone P c sp) (e : Error) :
    (∀ fs l, serializeFrames fs l = .err e → e.toErrorByte.toNat = Spec.INTERNAL_ERROR) ∧
    (∀ p : TransportParameter, p.serialize = .err e → e.toErrorByte.toNat = Spec.INTERNAL_ERROR) ∧
    (∀ fs t, (PacketInitial.new bp fs t c).1 = .err e → e.toErrorByte.toNat = Spec.INTERNAL_ERROR) ∧
    (∀ fs, (PacketHandshake.new bp fs c).1 = .err e → e.toErrorByte.toNat = Spec.INTERNAL_ERROR) ∧
    (∀ p : PacketInitial, p.serialize c = .err e → e.toErrorByte.toNat = Spec.INTERNAL_ERROR) ∧
    (∀ p : PacketHandshake, p.serialize c = .err e → e.toErrorByte.toNat = Spec.INTERNAL_ERROR) ∧
    ∀ srv v d n, Connection.new P srv v d n = .err e → e.toErrorByte.toNat = Spec.INTERNAL_ERROR := by
  exact ⟨fun _ _ h => framesBytes_only (Q := Internal) internal_code _ _ e h, fun _ h => parameter_only (Q := Internal) internal_code _ e h, fun _ _ h => newInitial_only (Q := Internal) internal_code _ _ _ _ e h,
    fun _ h => newHandshake_only (Q := Internal) internal_code _ _ _ e h, fun _ h => initialBytes_only (Q := Internal) internal_code (hk _) _ e h, fun _ h => handshakeBytes_only (Q := Internal) internal_code (hk _) _ e h,
    fun srv v d n h => connection_only (Q := Internal) internal_code P srv v d n e h⟩
/-- C98, the part that holds, for the socket, at every moment of every execution by any number of threads.
Missing for the full statement: as in `C98_frames_partial`. -/
theorem C98_socket_partial (P : Prims) (hP : PrimLaws P) (bp bp' : Profile) {tr} (s : Sys) (hr : Sys.Run P bp Sys.init tr s) (d : Datagram) (e : Error) :
    ((s.sock.routeDatagram d).1 = .err e → e.toErrorByte.toNat = Spec.INTERNAL_ERROR) ∧
    ((s.sock.packetsFromDatagram bp' d).1 = .err e → e.toErrorByte.toNat = Spec.INTERNAL_ERROR) := by
  exact ⟨route_only (Q := Internal) internal_code _ _ e, decoded_only (Q := Internal) (bp := bp') internal_code (fun _ _ hx sp => reachable_keysOrNone hP (table_reachable hr _ _ hx) sp) d e⟩

/-! Concrete cases: errors of each kind of function. -/
example : (deserializeFrames (makeResultStream [0x01, 0x1f])).1 = .err (.internalError "Invalid type byte") := by decide +kernel
example : (deserializeFrames (makeResultStream [0x18, 0x00, 0x00, 0x15])).1 = .err (.internalError "invalid connection id length") := by decide +kernel
example : (deserializeFrames [.ok 0x10, .error .flowControlError]).1 = .err .flowControlError ∧
    (.error .flowControlError : Except Error U8) ∈ ([.ok 0x10, .error .flowControlError] : Stream) := by decide +kernel
example : (nextHeaderFromStream (makeResultStream [0xc0, 0, 0, 0, 1, 21])).1 = .err (.internalError "invalid destination connection id length") := by
  decide +kernel
example : FramesWire [.ping] [0x01] ∧ IsVarInt [0x40, 0xff] 0xff ∧ (0x1e : Nat) < 0xff % 256 :=
  ⟨.cons (f := .ping) (b := [0x01]) (bs := []) ⟨0x01, _, .ping, by decide, rfl⟩ .nil, ⟨1, by decide +kernel⟩, by decide⟩
example : serializeFrames [.maxData ⟨2 ^ 62⟩] false = .err (.internalError "var int overflow") := by decide +kernel
example : ∀ sp, KeysOrNone toy exConn sp := reachable_keysOrNone toy_laws exConn_reachable
example : (decodePackets .release exConn (makeResultStream [0xe0, 0, 0, 0, 1, 0, 0, 0])).1 = .err (.internalError "not enough bytes for var_bytes") := by decide +kernel
example : (Sock.bind.routeDatagram ⟨[0x40, 1, 2, 3, 4, 5, 6, 7, 8], 0⟩).1 = .err (.internalError "missing connection") := by rfl
end QuicSea
