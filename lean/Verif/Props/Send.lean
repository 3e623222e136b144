import Verif.Props.ExactRest
import Verif.Props.Construct
import Verif.Props.Identity
/-
C114: what can go wrong on the way from frames to the bytes of a packet, exactly.
-/
namespace Spec
open QuicSea

/-- How a call ends. -/
inductive Kind where
  | ok | err | panic
deriving DecidableEq, Repr

/-- One call after another: the second is made only if the first succeeds. -/
def Kind.andThen : Kind → Kind → Kind
  | .ok, k => k
  | k, _ => k

def kindOf : Out α → Kind
  | .ok _ => .ok
  | .err _ => .err
  | .panic _ => .panic

/-- Every integer of the frame has a variable-length encoding. -/
def Encodable (f : Frame) : Bool := (intFields true f).all fun v => decide (v.toNat < 2 ^ 62)

/-- A NEW_CONNECTION_ID frame with a connection id longer than 20 bytes. -/
def LongId : Frame → Bool
  | .newConnectionId x => decide (20 < x.length.toNat)
  | _ => false

/-- Writing a frame. -/
def frameKind (f : Frame) : Kind := if Encodable f then if LongId f then .panic else .ok else .err

/-- Writing frames: the first that cannot be written decides. -/
def framesKind : List Frame → Kind
  | [] => .ok
  | f :: fs => (frameKind f).andThen (framesKind fs)

/-- Taking the next packet number when `n` were taken before: four bytes are all the code ever uses, and the counter has 64 bits. -/
def numberKind (bp : Profile) (n : Nat) : Kind :=
  if n + 1 < 2 ^ 32 then .ok
  else if n + 1 < 2 ^ 64 then .err
  else match bp with
    | .debug => .panic
    | .release => .ok

/-- A source connection id: it must be set; its length is cut to a byte and must then be at most 20. -/
def idKind : Option (U160 × Nat) → Kind
  | none => .err
  | some _ => .ok
def idLengthKind : Option (U160 × Nat) → Kind
  | none => .ok
  | some (_, n) => if 20 < n % 256 then .panic else .ok

/-- Frames obtainable outside src/frame.rs, where the fields of the frame structs are private: those of its constructors and those read from a
peer. -/
inductive Obtainable : Frame → Prop where
  | padding : Obtainable .padding
  | ping : Obtainable .ping
  | handshakeDone : Obtainable .handshakeDone
  | ack {x} : FrameAck.new = .ok x → Obtainable (.ack x)
  | simple {a b c u f} : f ∈ simpleFrames a b c u → Obtainable f
  | crypto (d) : Obtainable (.crypto (.new d))
  | newToken (d) : Obtainable (.newToken (.new d))
  | stream (i d e) : Obtainable (.stream (.new i d e))
  | newConnectionId (s r c t) : Obtainable (.newConnectionId (.new s r c t))
  | closeApp (e r) : Obtainable (.connectionClose (.newApplicationError e r))
  | close (e t r) : Obtainable (.connectionClose (.newError e t r))
  | received {s s' f} : deserializeFrame s = (.ok f, s') → Obtainable f

end Spec

namespace QuicSea
open Spec

/-- Building an Initial packet from frames and writing it, as an endpoint that sends would: src/packet.rs:223-244, then 304-341 on the connection
the first leaves. -/
def sendInitial (bp : Profile) (c : Connection) (fs : List Frame) (token : Option Bytes) : Out Bytes := do
  let p ← (PacketInitial.new bp fs token c).1
  p.serialize (PacketInitial.new bp fs token c).2

/-- The same for Handshake packets: src/packet.rs:409-424 and 481-513. -/
def sendHandshake (bp : Profile) (c : Connection) (fs : List Frame) : Out Bytes := do
  let p ← (PacketHandshake.new bp fs c).1
  p.serialize (PacketHandshake.new bp fs c).2

/-! ### Frames -/

theorem encodable_iff {f : Frame} : Encodable f = true ↔ ∀ v ∈ intFields true f, v.toNat < 2 ^ 62 := by
  simp only [Encodable, List.all_eq_true, decide_eq_true_eq]

theorem kindOf_bind {x : Out α} {f : α → Out β} {k : Kind} (h : ∀ a, x = .ok a → kindOf (f a) = k) : kindOf (x >>= f) = (kindOf x).andThen k := by
  cases x with
  | ok a => exact h a rfl
  | err e => rfl
  | panic w => rfl

/-- C114, one frame: an error exactly if an integer is too large, a panic exactly if the integers are fine and the frame is a NEW_CONNECTION_ID
with an id of more than 20 bytes. -/
theorem C114_frame (f : Frame) : kindOf (f.toBytes false) = frameKind f := by
  unfold frameKind
  by_cases hl : LongId f = true
  · cases f with
    | newConnectionId x =>
      have h20 : 20 < x.length.toNat := of_decide_eq_true hl
      rw [hl]
      by_cases he : Encodable (.newConnectionId x) = true
      · rw [he]
        have hv : ∀ v ∈ intFields true (.newConnectionId x), v.toNat < 2 ^ 62 := encodable_iff.mp he
        have := C18_long_cid_panics x false h20 (hv _ (by simp [intFields])) (hv _ (by simp [intFields]))
        cases ht : (Frame.newConnectionId x).toBytes false <;> rw [ht] at this <;> first | rfl | cases this
      · rw [if_neg he]
        have hv : ¬ ∀ v ∈ intFields true (.newConnectionId x), v.toNat < 2 ^ 62 := mt encodable_iff.mpr he
        show kindOf x.toBytes = _
        unfold FrameNewConnectionId.toBytes
        rcases enc_cases x.sequenceNumber with ⟨b1, e1, l1⟩ | ⟨e1, -⟩
        · rcases enc_cases x.retirePriorTo with ⟨b2, e2, l2⟩ | ⟨e2, -⟩
          · refine absurd (fun v hm => ?_) hv
            simp only [intFields, List.mem_cons, List.not_mem_nil, or_false] at hm
            rcases hm with rfl | rfl
            · exact l1
            · exact l2
          · rw [e1, Out.ok_bind, e2]; rfl
        · rw [e1]; rfl
    | _ => cases hl
  · rw [if_neg hl]
    rcases toBytes_okIff f false (by
      rintro x rfl
      refine Nat.not_lt.mp fun h => hl ?_
      exact decide_eq_true h) with ⟨b, hb, h⟩ | ⟨hb, h⟩
    · rw [hb, if_pos (show Encodable f = true from encodable_iff.mpr h)]; rfl
    · rw [hb, if_neg (show ¬ Encodable f = true from fun he => h (encodable_iff.mp he))]; rfl

/-- C114, a list of frames: the first frame that cannot be written decides. -/
theorem C114_frames (fs : List Frame) : kindOf (serializeFrames fs false) = framesKind fs := by
  induction fs with
  | nil => rfl
  | cons f fs ih =>
    rw [serializeFrames_cons, Bool.false_and]
    show _ = (frameKind f).andThen (framesKind fs)
    rw [← C114_frame f, ← ih]
    refine kindOf_bind fun a _ => ?_
    cases serializeFrames fs false <;> rfl

/-- Frames made by the constructors or read from a peer have no id of more than 20 bytes. -/
theorem obtainable_short {f : Frame} (h : Obtainable f) : LongId f = false := by
  cases h with
  | ack h => cases h
  | simple h =>
    simp only [simpleFrames, List.mem_cons, List.not_mem_nil, or_false] at h
    rcases h with rfl | rfl | rfl | rfl | rfl | rfl | rfl | rfl | rfl | rfl | rfl <;> rfl
  | received h =>
    obtain ⟨t, tb, b, -, -, hb⟩ := frame_sound h
    generalize t.toNat % 256 = m at hb
    cases hb with
    | std hb =>
      cases hb true with
      | newConnectionId _ _ _ h20 => exact decide_eq_false (Nat.not_lt.mpr h20)
      | _ => rfl
    | _ => rfl
  | _ => rfl

theorem framesKind_obtainable {fs : List Frame} (h : ∀ f ∈ fs, Obtainable f) : framesKind fs ≠ .panic := by
  induction fs with
  | nil => decide
  | cons f fs ih =>
    have := ih fun g hg => h g (List.mem_cons_of_mem _ hg)
    show (frameKind f).andThen _ ≠ _
    unfold frameKind
    rw [obtainable_short (h f (List.mem_cons_self ..))]
    split
    · exact this
    · exact nofun

/-! ### Packets -/

theorem longBytes (h : LongPacketHeader) (hd : h.destinationConnectionIdLength.toNat ≤ 20) :
    kindOf h.toBytes = if 20 < h.sourceConnectionIdLength.toNat then .panic else .ok := by
  obtain ⟨d, e1, -⟩ := toVarBytes_spec h.destinationConnectionId _ hd
  unfold LongPacketHeader.toBytes
  rw [e1, Out.ok_bind]
  by_cases hs : 20 < h.sourceConnectionIdLength.toNat
  · rw [if_pos hs]
    have := toVarBytes_panic h.sourceConnectionId _ hs
    cases ht : h.sourceConnectionId.toVarBytes h.sourceConnectionIdLength.toNat <;> rw [ht] at this <;> first | rfl | cases this
  · obtain ⟨s, e2, -⟩ := toVarBytes_spec h.sourceConnectionId _ (Nat.not_lt.mp hs)
    rw [if_neg hs, e2]; rfl

theorem longBytes_ok {h : LongPacketHeader} {b : Bytes} (e : h.toBytes = .ok b) :
    b.length = 7 + h.destinationConnectionIdLength.toNat + h.sourceConnectionIdLength.toNat ∧
    ∀ x p, ∃ b', ({ h with headerByte := x, isProtected := p } : LongPacketHeader).toBytes = .ok b' := by
  unfold LongPacketHeader.toBytes at e
  obtain ⟨d, e1, e⟩ := Out.bind_eq_ok e
  obtain ⟨s, e2, e⟩ := Out.bind_eq_ok e
  have len : ∀ {x : U160} {n : Nat} {b : Bytes}, x.toVarBytes n = .ok b → b.length = n := by
    intro x n b hb
    by_cases hn : 20 < n
    · have := toVarBytes_panic x n hn; rw [hb] at this; cases this
    · obtain ⟨b', h1, h2, -⟩ := toVarBytes_spec x n (Nat.not_lt.mp hn)
      rw [h1] at hb; cases hb; exact h2
  cases e
  refine ⟨?_, fun x p => ⟨_, by unfold LongPacketHeader.toBytes; rw [e1, Out.ok_bind, e2, Out.ok_bind]; rfl⟩⟩
  simp only [List.length_append, toBeBytes_length, List.length_cons, List.length_nil, len e1, len e2]
  omega

/-- Protecting a packet whose packet number has four bytes: only the header can panic, and only too many bytes are an error. -/
theorem sealTail_kind {P : Prims} (hP : PrimLaws P) {c : Connection} {sp : PnSpace} {k : Keys} (hk : c.localSecrets sp = .ok (secretsOf P k))
    (hkl : KeyLens k) {h : LongPacketHeader} (hp : h.isProtected = false) (hd : h.destinationConnectionIdLength.toNat ≤ 20) {mid pnB : Bytes} {pn : U64}
    {payload : Bytes} (hl : pnB.length = 4) :
    (20 < h.sourceConnectionIdLength.toNat → kindOf (sealTail c sp h mid pnB pn 4 payload) = .panic) ∧
    (¬ 20 < h.sourceConnectionIdLength.toNat → kindOf (sealTail c sp h mid pnB pn 4 payload) ≠ .panic ∧
      (mid.length < 2 ^ 29 → payload.length < 2 ^ 30 → kindOf (sealTail c sp h mid pnB pn 4 payload) = .ok)) := by
  have hk1 := longBytes h hd
  constructor
  · intro hs
    rw [if_pos hs] at hk1
    unfold sealTail
    cases ht : h.toBytes <;> rw [ht] at hk1 <;> first | rfl | cases hk1
  · intro hs
    rw [if_neg hs] at hk1
    obtain ⟨hb, e1⟩ : ∃ b, h.toBytes = .ok b := by cases ht : h.toBytes <;> rw [ht] at hk1 <;> first | exact ⟨_, rfl⟩ | cases hk1
    obtain ⟨hbl, hby⟩ := longBytes_ok e1
    have main : ∀ ct tag, P.gcmSeal k.key (packetNonce k.iv pn) (hb ++ mid ++ pnB) payload = some (ct, tag) →
        kindOf (sealTail c sp h mid pnB pn 4 payload) = .ok := by
      intro ct tag hseal
      obtain ⟨lc, lt⟩ := hP.seal_length _ _ _ _ _ _ hseal
      have hsl : sliceFrom (ct ++ tag) (4 - 4) = .ok (ct ++ tag) := sliceFrom_ok.mpr ⟨by omega, rfl⟩
      obtain ⟨m, hm⟩ := hpMask_noPanic hP hkl.1 (s := (ct ++ tag).take 16) (by rw [List.length_take, List.length_append]; omega)
      have hmask : (c.getLocalHpMask sp (makeResultStream (ct ++ tag))).1 = .ok m := by
        rw [getLocalHpMask_eq hk]
        conv => lhs; rw [← List.take_append_drop 16 (ct ++ tag)]
        rw [makeResultStream_append, hpm_run (by rw [List.length_take, List.length_append]; omega), hm]
      obtain ⟨b', e6⟩ := hby (h.headerByte ^^^ (m.m0 &&& 0x0f)) true
      have ea : h.addProtection m = { h with headerByte := h.headerByte ^^^ (m.m0 &&& 0x0f), isProtected := true } := by
        unfold LongPacketHeader.addProtection
        rw [hp]; rfl
      rw [← ea] at e6
      unfold sealTail
      rw [e1, Out.ok_bind, localEncrypt_eq hk]
      unfold internalEncryptAes128Gcm
      rw [hseal]
      simp only [Out.ok_bind, hsl, hmask, xorPn_ok.mpr ⟨Nat.le_of_eq hl, rfl⟩, e6]
      rfl
    constructor
    · cases hg : P.gcmSeal k.key (packetNonce k.iv pn) (hb ++ mid ++ pnB) payload with
      | some x => rw [main x.1 x.2 hg]; exact nofun
      | none =>
        unfold sealTail
        rw [e1, Out.ok_bind, localEncrypt_eq hk]
        unfold internalEncryptAes128Gcm
        rw [hg]
        exact nofun
    · intro hmid hpl
      obtain ⟨ct, tag, hseal⟩ := hP.sealing k.key (packetNonce k.iv pn) (hb ++ mid ++ pnB) payload hkl.2.2
        (by rw [packetNonce_length]; exact hkl.2.1) (by rw [List.length_append, List.length_append]; omega) hpl
      exact main ct tag hseal

theorem kind_cases (x : Out α) : (∃ a, x = .ok a) ∨ (∃ e, x = .err e) ∨ (∃ w, x = .panic w) := by
  cases x with
  | ok a => exact .inl ⟨a, rfl⟩
  | err e => exact .inr (.inl ⟨e, rfl⟩)
  | panic w => exact .inr (.inr ⟨w, rfl⟩)

/-- Taking a packet number. -/
theorem number_kind {P : Prims} {bp : Profile} {c : Connection} (h : Connection.Reachable P bp c) (sp : PnSpace) :
    kindOf (c.getNextPn bp sp).1 = numberKind bp (c.pnInfo sp).nextPn.toNat := by
  have hlt := (c.pnInfo sp).nextPn.isLt
  have hx := C56_exact P bp c h sp
  unfold numberKind
  by_cases h1 : (c.pnInfo sp).nextPn.toNat + 1 < 2 ^ 32
  · rw [if_pos h1, getNextPn_eq bp c sp (by omega), (reachable_acks h sp).1]
    dsimp only
    rw [truncatePn_none _ (by rw [add1_toNat _ (by omega)]; exact h1)]
    rfl
  · rw [if_neg h1]
    by_cases h2 : (c.pnInfo sp).nextPn.toNat + 1 < 2 ^ 64
    · rw [if_pos h2]
      have := hx.mpr ⟨by omega, h2⟩
      cases hg : (c.getNextPn bp sp).1 <;> rw [hg] at this <;> first | rfl | cases this
    · rw [if_neg h2]
      have := C56_wraps P bp c h sp (by omega)
      cases bp with
      | debug => cases hg : (c.getNextPn .debug sp).1 <;> rw [hg] at this <;> first | rfl | cases this
      | release => dsimp only at this; rw [this]; rfl

/-- Building a packet: a number and a source id are all it needs. -/
theorem initialNew_kind {P : Prims} {bp : Profile} {c : Connection} (h : Connection.Reachable P bp c) (fs : List Frame) (token : Option Bytes) :
    kindOf (PacketInitial.new bp fs token c).1 = (numberKind bp (c.pnInfo .initial).nextPn.toNat).andThen (idKind c.scid) := by
  rw [← number_kind h .initial]
  unfold PacketInitial.new
  obtain ⟨-, -, f3⟩ := getNextPn_frame bp c .initial
  cases hg : c.getNextPn bp .initial with
  | mk o d =>
    rw [hg] at f3
    cases o with
    | err e => rfl
    | panic w => rfl
    | ok x =>
      obtain ⟨n, b⟩ := x
      have hb : b.length = 4 := (C56_encoding_determines_partial P bp c h .initial n b (by rw [hg])).1
      dsimp only
      rw [hb, if_neg (by decide)]
      unfold LongPacketHeader.fromConnection Connection.getScid Connection.getDcid
      dsimp only at f3
      rw [f3]
      cases c.scid <;> rfl
theorem handshakeNew_kind {P : Prims} {bp : Profile} {c : Connection} (h : Connection.Reachable P bp c) (fs : List Frame) :
    kindOf (PacketHandshake.new bp fs c).1 = (numberKind bp (c.pnInfo .handshake).nextPn.toNat).andThen (idKind c.scid) := by
  rw [← number_kind h .handshake]
  unfold PacketHandshake.new
  obtain ⟨-, -, f3⟩ := getNextPn_frame bp c .handshake
  cases hg : c.getNextPn bp .handshake with
  | mk o d =>
    rw [hg] at f3
    cases o with
    | err e => rfl
    | panic w => rfl
    | ok x =>
      obtain ⟨n, b⟩ := x
      have hb : b.length = 4 := (C56_encoding_determines_partial P bp c h .handshake n b (by rw [hg])).1
      dsimp only
      rw [hb, if_neg (by decide)]
      unfold LongPacketHeader.fromConnection Connection.getScid Connection.getDcid
      dsimp only at f3
      rw [f3]
      cases c.scid <;> rfl

theorem reachable_dcid {P : Prims} {bp : Profile} {c : Connection} (h : Connection.Reachable P bp c) : c.dcid.2 ≤ 20 := by
  obtain ⟨srv, v, d, n, c0, ops, hn, rfl⟩ := h
  obtain ⟨cid, kl, kr, h0, -, -, e⟩ := new_ok' hn
  rw [(run_ids bp ops c0).2]
  have : c0.dcid = (d, n) := by rw [e]
  rw [this]
  refine Nat.not_lt.mp fun hlt => ?_
  have := toVarBytes_panic d n hlt
  rw [h0] at this
  cases this

theorem initial_writes {P : Prims} (hP : PrimLaws P) {bp : Profile} {c : Connection} (h : Connection.Reachable P bp c) {fs : List Frame}
    {token : Option Bytes} {p : PacketInitial} (hp : (PacketInitial.new bp fs token c).1 = .ok p) :
    let r := kindOf (p.serialize (PacketInitial.new bp fs token c).2)
    (framesKind fs ≠ .ok → r = framesKind fs) ∧
    (framesKind fs = .ok →
      (idLengthKind c.scid = .ok → r ≠ .panic) ∧
      ((∀ payload, serializeFrames fs false = .ok payload → payload.length < 2 ^ 30) → (token.getD []).length < 2 ^ 28 → r = idLengthKind c.scid)) := by
  obtain ⟨sc, sl, e1, e2, e3, e4, e5, e6, e7, e8, e9⟩ := initialNew_facts hp
  have h4 := ((C56_packets_partial P bp c h).1 _ _ _ hp).1
  have hr : Connection.Reachable P bp (PacketInitial.new bp fs token c).2 := by
    obtain ⟨srv, v, d, n, c0, ops, hn, rfl⟩ := h
    exact ⟨srv, v, d, n, c0, ops ++ [.buildInitial fs token], hn, by rw [run_append]; rfl⟩
  obtain ⟨⟨kl, -, hkl, -, hk, -⟩, -⟩ := reachable_keys hP hr
  have hd : p.header.destinationConnectionIdLength.toNat ≤ 20 := by
    have := reachable_dcid h
    rw [e5]
    show (BitVec.ofNat 8 c.dcid.2).toNat ≤ 20
    rw [BitVec.toNat_ofNat]
    exact Nat.le_trans (Nat.mod_le _ _) this
  have hpr : p.header.isProtected = false := by rw [e5]
  have hsl : p.header.sourceConnectionIdLength.toNat = sl % 256 := by
    rw [e5]
    show (BitVec.ofNat 8 sl).toNat = _
    rw [BitVec.toNat_ofNat]
  have hid : idLengthKind c.scid = if 20 < p.header.sourceConnectionIdLength.toNat then .panic else .ok := by rw [e1, hsl]; rfl
  dsimp only
  rw [initial_serialize_eq, e7, ← C114_frames fs, hid]
  rcases kind_cases (serializeFrames fs false) with ⟨pl, e⟩ | ⟨x, e⟩ | ⟨x, e⟩
  · refine ⟨fun hne => absurd (by rw [e]; rfl) hne, fun _ => ?_⟩
    have hbyte : p.header.headerByte.toNat % 4 + 1 = 4 := by rw [e4, h4]
    rw [e, Out.ok_bind, pnLength_eq.mpr ⟨hpr, hbyte.symm⟩, Out.ok_bind, protectedLen_eq hk, Out.ok_bind]
    constructor
    · intro hs
      have hs : ¬ 20 < p.header.sourceConnectionIdLength.toNat := by
        intro hlt; rw [if_pos hlt] at hs; cases hs
      rcases enc_cases (BitVec.ofNat 64 (16 + pl.length + 4)) with ⟨b1, g1, -⟩ | ⟨g1, -⟩
      · rcases enc_cases (BitVec.ofNat 64 p.token.length) with ⟨b2, g2, -⟩ | ⟨g2, -⟩
        · rw [g1, Out.ok_bind, g2, Out.ok_bind]
          exact ((sealTail_kind hP hk hkl hpr hd h4).2 hs).1
        · rw [g1, Out.ok_bind, g2]; exact nofun
      · rw [g1]; exact nofun
    · intro hpl htok
      have hpl := hpl pl rfl
      rw [← e6] at htok
      obtain ⟨lb, g1⟩ := encodeVarInt_ok (BitVec.ofNat 64 (16 + pl.length + 4)) (by rw [ofNat64_toNat (by omega)]; omega)
      obtain ⟨tl, g2⟩ := encodeVarInt_ok (BitVec.ofNat 64 p.token.length) (by rw [ofNat64_toNat (by omega)]; omega)
      have l4 := isVarInt_len (encodeVarInt_isVarInt g1)
      have l5 := isVarInt_len (encodeVarInt_isVarInt g2)
      rw [g1, Out.ok_bind, g2, Out.ok_bind]
      obtain ⟨k1, k2⟩ := sealTail_kind hP hk hkl hpr hd h4 (mid := tl ++ p.token ++ lb) (pn := p.packetNumber) (payload := pl)
      split
      · exact k1 ‹_›
      · exact (k2 ‹_›).2 (by simp only [List.length_append]; omega) hpl
  · rw [e]; exact ⟨fun _ => rfl, fun h => nomatch h⟩
  · rw [e]; exact ⟨fun _ => rfl, fun h => nomatch h⟩

/-- C114, full statement: sending frames in an Initial packet never panics, on any connection, with any frames that can be obtained. -/
def C114For (P : Prims) : Prop :=
  ∀ (bp : Profile) (c : Connection), Connection.Reachable P bp c → ∀ (fs : List Frame) (token : Option Bytes),
    (∀ f ∈ fs, Obtainable f) → kindOf (sendInitial bp c fs token) ≠ .panic
/-- The claim, for all algorithms that obey the laws. -/
def C114Statement : Prop := ∀ P, PrimLaws P → C114For P

/-- **C114, exactly.** Sending frames in an Initial packet, of less than 2^30 bytes with a token of less than 2^28: how it ends is decided, in this
order, by the packet number, the source id, the first frame that cannot be written, and the length of the source id. -/
theorem C114_initial_exact (P : Prims) (bp : Profile) (c : Connection) (hP : PrimLaws P) (h : Connection.Reachable P bp c) (fs : List Frame)
    (token : Option Bytes) (hpl : ∀ payload, serializeFrames fs false = .ok payload → payload.length < 2 ^ 30) (ht : (token.getD []).length < 2 ^ 28) :
    kindOf (sendInitial bp c fs token) =
      (numberKind bp (c.pnInfo .initial).nextPn.toNat).andThen ((idKind c.scid).andThen ((framesKind fs).andThen (idLengthKind c.scid))) := by
  have hassoc : ∀ a b d : Kind, (a.andThen b).andThen d = a.andThen (b.andThen d) := by intro a b d; cases a <;> rfl
  rw [← hassoc, ← initialNew_kind h fs token]
  refine kindOf_bind fun p hp => ?_
  obtain ⟨k1, k2⟩ := initial_writes hP h hp
  cases hf : framesKind fs with
  | ok => exact (k2 hf).2 hpl ht
  | err => exact (k1 (by rw [hf]; exact nofun)).trans hf
  | panic => exact (k1 (by rw [hf]; exact nofun)).trans hf

/-- **C114, partial**, whatever the sizes. With obtainable frames nothing panics while the source id is at most 20 bytes and the packet number
counter is not at its last value. Missing: those two cases. -/
theorem C114_initial_partial (P : Prims) (bp : Profile) (c : Connection) (hP : PrimLaws P) (h : Connection.Reachable P bp c) (fs : List Frame)
    (token : Option Bytes) (hf : ∀ f ∈ fs, Obtainable f) (hs : ∀ x, c.scid = some x → x.2 ≤ 20)
    (hn : (c.pnInfo .initial).nextPn.toNat + 1 < 2 ^ 64) : kindOf (sendInitial bp c fs token) ≠ .panic := by
  unfold sendInitial
  have hk := initialNew_kind h fs token
  rcases kind_cases (PacketInitial.new bp fs token c).1 with ⟨p, hp⟩ | ⟨e, hp⟩ | ⟨w, hp⟩
  · rw [hp, Out.ok_bind]
    obtain ⟨k1, k2⟩ := initial_writes hP h hp
    have hno := framesKind_obtainable hf
    by_cases hok : framesKind fs = .ok
    · refine (k2 hok).1 ?_
      cases hsc : c.scid with
      | none => rfl
      | some x =>
        have := hs x hsc
        show (if 20 < x.2 % 256 then _ else _) = _
        rw [if_neg]
        have := Nat.mod_le x.2 256
        omega
    · rw [k1 hok]; exact hno
  · rw [hp]; exact nofun
  · rw [hp] at hk
    exfalso
    revert hk
    unfold numberKind
    rw [if_pos hn]
    split
    · cases c.scid <;> exact nofun
    · exact nofun

/-- C114, Handshake packets: there are never keys for them, so nothing is ever written; only the counter and the frames can panic. -/
theorem C114_handshake_exact (P : Prims) (bp : Profile) (c : Connection) (hP : PrimLaws P) (h : Connection.Reachable P bp c) (fs : List Frame) :
    kindOf (sendHandshake bp c fs) =
      (numberKind bp (c.pnInfo .handshake).nextPn.toNat).andThen ((idKind c.scid).andThen ((framesKind fs).andThen .err)) := by
  have hassoc : ∀ a b d : Kind, (a.andThen b).andThen d = a.andThen (b.andThen d) := by intro a b d; cases a <;> rfl
  rw [← hassoc, ← handshakeNew_kind h fs]
  refine kindOf_bind fun p hp => ?_
  obtain ⟨sc, sl, e1, e2, e3, e4, e5, e7, e8, e9⟩ := handshakeNew_facts hp
  have hr : Connection.Reachable P bp (PacketHandshake.new bp fs c).2 := by
    obtain ⟨srv, v, d, n, c0, ops, hn, rfl⟩ := h
    exact ⟨srv, v, d, n, c0, ops ++ [.buildHandshake fs], hn, by rw [run_append]; rfl⟩
  obtain ⟨x, hx⟩ := ((reachable_keys hP hr).2 .handshake nofun).1
  rw [handshake_serialize_eq, e7, ← C114_frames fs]
  refine kindOf_bind fun pl _ => ?_
  rw [pnLength_eq.mpr ⟨by rw [e5], rfl⟩, Out.ok_bind]
  unfold Connection.getLocalProtectedPayloadLen
  rw [hx]
  rfl

/-- C114 fails on every connection whose source id was set with a length that, cut to a byte, is more than 20: writing any packet panics. -/
theorem C114_long_source_id (P : Prims) (bp : Profile) (c : Connection) (hP : PrimLaws P) (h : Connection.Reachable P bp c) (cid : U160) (n : Nat)
    (hn : 20 < n % 256) (hc : (c.pnInfo .initial).nextPn.toNat + 1 < 2 ^ 32) : kindOf (sendInitial bp (c.setScid cid n) [.ping] none) = .panic := by
  have hr : Connection.Reachable P bp (c.setScid cid n) := by
    obtain ⟨srv, v, d, m, c0, ops, h0, rfl⟩ := h
    exact ⟨srv, v, d, m, c0, ops ++ [.setScid cid n], h0, by rw [run_append]; rfl⟩
  rw [C114_initial_exact P bp _ hP hr [.ping] none (by intro pl e; cases e; decide) (by decide)]
  have e1 : numberKind bp ((c.setScid cid n).pnInfo .initial).nextPn.toNat = .ok := if_pos hc
  have e2 : framesKind [.ping] = .ok := by decide
  have e3 : idLengthKind (c.setScid cid n).scid = .panic := if_pos hn
  rw [e1, e2, e3]
  rfl

theorem run_keeps_scid (bp : Profile) (ops : List ConnOp) (h : ∀ cid n, .setScid cid n ∉ ops) (c : Connection) : (c.run bp ops).2.scid = c.scid := by
  induction ops generalizing c with
  | nil => rfl
  | cons op ops ih =>
    show ((c.step bp op).2.run bp ops).2.scid = _
    rw [ih (fun cid n hm => h cid n (List.mem_cons_of_mem _ hm))]
    cases op with
    | setScid cid n => exact absurd (List.mem_cons_self ..) (h cid n)
    | nextPn sp => exact (getNextPn_frame bp c sp).2.2
    | buildInitial p t =>
      show (PacketInitial.new bp p t c).2.scid = _
      rw [initialNew_conn]
      exact (getNextPn_frame bp c .initial).2.2
    | buildHandshake p =>
      show (PacketHandshake.new bp p c).2.scid = _
      rw [handshakeNew_conn]
      exact (getNextPn_frame bp c .handshake).2.2

/-- C114 for the connections of a socket, at any moment of any execution: until 2^32 - 2 numbers were taken, only the frames decide, and frames
that can be obtained never panic. -/
theorem C114_socket {P : Prims} (hP : PrimLaws P) {bp : Profile} {tr} {s : Sys} (hr : Sys.Run P bp Sys.init tr s) (key : U160) (x : StreamState)
    (hx : s.sock.streams key = some x) (ops : List ConnOp) (hops : ∀ cid n, .setScid cid n ∉ ops) (hlen : ops.length + 1 < 2 ^ 32) (fs : List Frame)
    (token : Option Bytes) :
    ((∀ payload, serializeFrames fs false = .ok payload → payload.length < 2 ^ 30) → (token.getD []).length < 2 ^ 28 →
      kindOf (sendInitial bp (x.connection.run bp ops).2 fs token) = framesKind fs) ∧
    ((∀ f ∈ fs, Obtainable f) → kindOf (sendInitial bp (x.connection.run bp ops).2 fs token) ≠ .panic) := by
  obtain ⟨h8, -, c, dcid, len, h1, h2⟩ := C46_own_id hr key x hx
  have hreach : Connection.Reachable P bp (x.connection.run bp ops).2 :=
    ⟨true, .v1, dcid, len, c, .setScid key 8 :: ops, h1, by rw [h2]; rfl⟩
  have hz : (x.connection.pnInfo .initial).nextPn.toNat = 0 := by
    obtain ⟨cid, kl, kr, -, -, -, e⟩ := new_ok' h1
    rw [h2, e]; rfl
  have hn := run_nextPn bp ops x.connection .initial (by omega)
  rw [hz, Nat.zero_add] at hn
  have hs : (x.connection.run bp ops).2.scid = some (key, 8) := by rw [run_keeps_scid bp ops hops, h8]
  refine ⟨fun hpl ht => ?_, fun hf => C114_initial_partial P bp _ hP hreach fs token hf (by rw [hs]; rintro _ ⟨⟩; exact Nat.le_of_ble_eq_true rfl) (by omega)⟩
  rw [C114_initial_exact P bp _ hP hreach fs token hpl ht, hs]
  have e1 : numberKind bp ((x.connection.run bp ops).2.pnInfo .initial).nextPn.toNat = .ok := if_pos (by omega)
  rw [e1]
  show (framesKind fs).andThen .ok = _
  cases framesKind fs <;> rfl

theorem C114_false : ¬ C114Statement := by
  intro h
  have hr : Connection.Reachable toy .debug exConn := ⟨true, .v1, _, 8, exConn, [], exConn_new, rfl⟩
  have hr' : Connection.Reachable toy .debug (exConn.setScid .zero 21) := ⟨true, .v1, _, 8, exConn, [.setScid .zero 21], exConn_new, rfl⟩
  exact h toy toy_laws .debug _ hr' [.ping] none (by intro f hf; cases hf with | head => exact .ping | tail _ hf => cases hf)
    (C114_long_source_id toy .debug exConn toy_laws hr .zero 21 (by decide) (by decide +kernel))

/-- Instances: a connection with a source id of 8 bytes sends PING and a NEW_CONNECTION_ID; a stream id of 2^62 is an error; an id of 21 bytes
(which no constructor makes and no peer can send) would panic, but not after a frame that is an error. -/
example : kindOf (sendInitial .debug (exConn.setScid .zero 8) [.ping, .newConnectionId (.new 1 0 .zero 7)] none) = .ok := by decide +kernel
example : kindOf (sendInitial .debug (exConn.setScid .zero 8) [.ping, .maxStreamData ⟨0x4000000000000000, 1⟩] none) = .err := by decide +kernel
example : kindOf (sendInitial .debug (exConn.setScid .zero 8) [.newConnectionId ⟨1, 0, 21, .zero, 7⟩, .maxData ⟨0x4000000000000000⟩] none) = .panic := by decide +kernel
example : kindOf (sendInitial .debug (exConn.setScid .zero 8) [.maxData ⟨0x4000000000000000⟩, .newConnectionId ⟨1, 0, 21, .zero, 7⟩] none) = .err := by decide +kernel
example : framesKind [.maxData ⟨0x4000000000000000⟩, .newConnectionId ⟨1, 0, 21, .zero, 7⟩] = .err ∧
    framesKind [.newConnectionId ⟨1, 0, 21, .zero, 7⟩, .maxData ⟨0x4000000000000000⟩] = .panic := by decide +kernel
example : kindOf (sendInitial .debug exConn [.ping] none) = .err ∧ kindOf (sendHandshake .debug (exConn.setScid .zero 8) [.ping]) = .err := by decide +kernel
example : Obtainable (.newConnectionId ⟨1, 0, 20, ⟨0, 5⟩, 7⟩) :=
  .received (s := makeResultStream ([0x18, 0x01, 0x00, 20] ++ (List.replicate 19 0 ++ [5]) ++ (List.replicate 15 0 ++ [7]))) (s' := []) (by decide +kernel)

end QuicSea
