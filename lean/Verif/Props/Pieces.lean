import Verif.Props.Concat
import Verif.Props.Cut
/-
C148: the data handed over are pieces of what was received, each byte once and in order (RFC 9000 sections 19.6, 19.7, 19.8 and 19.19: the data of a frame are a field of it; section
17.2.2: so is the token of an Initial packet).
-/
namespace Spec
open QuicSea

/-- The data that a frame carries, of the kinds that carry any: CRYPTO, NEW_TOKEN, STREAM and CONNECTION_CLOSE. -/
def frameData : Frame → Option Bytes
  | .crypto x => some x.cryptoData
  | .newToken x => some x.token
  | .stream x => some x.streamData
  | .connectionClose x => some x.reasonPhrase
  | _ => none
/-- The token of an Initial packet. -/
def packetToken : Packet → Option Bytes
  | .initial p => some p.token
  | _ => none

/-- `ds` are found in `a` one after the other, each whole, without overlap. -/
inductive Pieces : List Bytes → Bytes → Prop
  | nil {a} : Pieces [] a
  | cons {gap d rest ds} : Pieces ds rest → Pieces (d :: ds) (gap ++ (d ++ rest))

def C148For (P : Prims) : Prop :=
  (∀ (a : Bytes) (fs : List Frame), (deserializeFrames (makeResultStream a)).1 = .ok fs → Pieces (fs.filterMap frameData) a) ∧
  (∀ (fs : List Frame) (last : Bool) (out : Bytes), serializeFrames fs last = .ok out → Pieces (fs.filterMap frameData) out) ∧
  ∀ (bp bp' : Profile) (c : Connection), Connection.Reachable P bp c → ∀ (a : Bytes) (ps : List Packet),
    (decodePackets bp' c (makeResultStream a)).1 = .ok ps → Pieces (ps.filterMap packetToken) a
/-- C148: the data of the frames parsed from a payload are pieces of the payload, those of the frames written are pieces of what is written, and the tokens of the packets that a connection
takes from a datagram are pieces of the datagram; all in order and without overlap. -/
def C148Statement : Prop := ∀ P, PrimLaws P → C148For P
end Spec

namespace QuicSea
open Spec

theorem pieces_skip {ds : List Bytes} {a : Bytes} (x : Bytes) (h : Pieces ds a) : Pieces ds (x ++ a) := by
  cases h with
  | nil => exact .nil
  | cons h => rw [← List.append_assoc]; exact .cons h
/-- What `Pieces` says of one piece and of all of them. -/
theorem pieces_infix {ds : List Bytes} {a : Bytes} (h : Pieces ds a) : ∀ d ∈ ds, d <:+: a := by
  induction h with
  | nil => intro d hd; cases hd
  | @cons gap d rest ds h ih =>
    intro x hx
    rcases List.mem_cons.mp hx with rfl | hx
    · exact ⟨gap, rest, by rw [List.append_assoc]⟩
    · obtain ⟨u, v, e⟩ := ih x hx
      exact ⟨gap ++ (d ++ u), v, by rw [← e]; simp⟩
theorem pieces_sublist {ds : List Bytes} {a : Bytes} (h : Pieces ds a) : ds.flatten.Sublist a := by
  induction h with
  | nil => exact List.nil_sublist _
  | cons h ih =>
    rw [List.flatten_cons]
    exact ((List.Sublist.refl _).append ih).trans (List.sublist_append_right _ _)

theorem codeBody_data {f : Frame} {t : Nat} {b : Bytes} {rest : Stream} (h : CodeBody f t b rest) {d : Bytes} (hd : frameData f = some d) : d <:+ b := by
  cases h with
  | std h _ _ =>
    cases h false <;> first | cases hd | skip
    · exact ⟨_, List.append_assoc _ _ _⟩
    · exact ⟨_, rfl⟩
    · exact ⟨_, by rw [List.append_assoc, List.append_assoc]⟩
    · exact ⟨_, by rw [List.append_assoc, List.append_assoc]⟩
    · exact ⟨_, List.append_assoc _ _ _⟩
  | crypto => cases hd; exact ⟨_, List.append_assoc _ _ _⟩
  | stream => cases hd; exact ⟨_, rfl⟩

/-- C148, reading. -/
theorem C148_parsed (a : Bytes) (fs : List Frame) (h : (deserializeFrames (makeResultStream a)).1 = .ok fs) : Pieces (fs.filterMap frameData) a := by
  induction fs generalizing a with
  | nil => exact .nil
  | cons f fs ih =>
    obtain ⟨t, tb, b, a', rfl, -, hb, h'⟩ := frames_uncons h
    cases hd : frameData f with
    | none =>
      rw [List.filterMap_cons_none hd]
      exact pieces_skip _ (pieces_skip _ (ih a' h'))
    | some d =>
      rw [List.filterMap_cons_some hd]
      obtain ⟨u, rfl⟩ := codeBody_data hb hd
      rw [List.append_assoc]
      exact pieces_skip _ (.cons (ih a' h'))

theorem toBytes_data {f : Frame} {e : Bool} {bs d : Bytes} (h : f.toBytes e = .ok bs) (hd : frameData f = some d) : d <:+ bs := by
  cases f with
  | crypto x =>
    cases hd
    obtain ⟨b1, -, h⟩ := Out.bind_eq_ok h
    obtain ⟨b2, -, h⟩ := Out.bind_eq_ok h
    cases h
    exact ⟨_, rfl⟩
  | newToken x =>
    cases hd
    obtain ⟨b1, -, h⟩ := Out.bind_eq_ok h
    cases h
    exact ⟨_, rfl⟩
  | stream x =>
    cases hd
    have h : x.toBytes (!e) = .ok bs := h
    rcases x with ⟨id, off, len, data, fin⟩
    unfold FrameStream.toBytes at h
    dsimp only at h
    obtain ⟨b1, -, h⟩ := Out.bind_eq_ok h
    by_cases ho : off = 0
    · subst ho
      obtain ⟨_, -, h⟩ := Out.bind_eq_ok h
      cases e
      · obtain ⟨b3, -, h⟩ := Out.bind_eq_ok h
        cases h
        exact ⟨_, rfl⟩
      · obtain ⟨b3, -, h⟩ := Out.bind_eq_ok h
        cases h
        exact ⟨_, rfl⟩
    · rw [if_pos (by simpa using ho)] at h
      obtain ⟨_, -, h⟩ := Out.bind_eq_ok h
      cases e
      · obtain ⟨b3, -, h⟩ := Out.bind_eq_ok h
        cases h
        exact ⟨_, rfl⟩
      · obtain ⟨b3, -, h⟩ := Out.bind_eq_ok h
        cases h
        exact ⟨_, rfl⟩
  | connectionClose x =>
    cases hd
    have h : x.toBytes = .ok bs := h
    rcases x with ⟨ec, ft, rl, rp, app⟩
    unfold FrameConnectionClose.toBytes at h
    dsimp only at h
    cases ft
    all_goals
      obtain ⟨b1, -, h⟩ := Out.bind_eq_ok h
      obtain ⟨b2, -, h⟩ := Out.bind_eq_ok h
      obtain ⟨b3, -, h⟩ := Out.bind_eq_ok h
      cases h
      exact ⟨_, rfl⟩
  | _ => cases hd

/-- C148, writing; also frames that no constructor makes. -/
theorem C148_written (fs : List Frame) (last : Bool) (out : Bytes) (h : serializeFrames fs last = .ok out) : Pieces (fs.filterMap frameData) out := by
  induction fs generalizing out with
  | nil => exact .nil
  | cons f fs ih =>
    rw [serializeFrames_cons] at h
    obtain ⟨b, hb, h⟩ := Out.bind_eq_ok h
    obtain ⟨bs, hbs, h⟩ := Out.bind_eq_ok h
    cases h
    cases hd : frameData f with
    | none =>
      rw [List.filterMap_cons_none hd]
      exact pieces_skip _ (ih bs hbs)
    | some d =>
      rw [List.filterMap_cons_some hd]
      obtain ⟨u, rfl⟩ := toBytes_data hb hd
      rw [List.append_assoc]
      exact .cons (ih bs hbs)

/-- C148, tokens. -/
theorem C148_tokens (P : Prims) (hP : PrimLaws P) (bp bp' : Profile) (c : Connection) (hr : Connection.Reachable P bp c) (a : Bytes) (ps : List Packet)
    (h : (decodePackets bp' c (makeResultStream a)).1 = .ok ps) : Pieces (ps.filterMap packetToken) a := by
  induction ps generalizing a with
  | nil => exact .nil
  | cons p ps ih =>
    obtain ⟨s1, h1, h2⟩ := packets_uncons h
    rcases C34_never_decoded P hP bp bp' c hr _ _ _ h1 with k | k
    · cases p with
      | initial p =>
        obtain ⟨sv, v, d, n, c0, ops, h0, rfl⟩ := hr
        obtain ⟨-, kk, -, -, -, out, hb, tl, lb, plain, skip, L, e, -, -, -, -, ho, -, -⟩ := C33_initial P hP bp bp' sv v d n c0 h0 ops _ _ p h1
        obtain ⟨a', rfl⟩ := stream_suffix e
        rw [← makeResultStream_append] at e
        cases makeResultStream_inj e
        obtain ⟨nb, ct, tag, m0, m1, m2, m3, m4, r, pm, -, -, -, -, -, -, -, -, rfl⟩ := ho
        have := Pieces.cons (gap := [p.header.headerByte ^^^ (m0 &&& 0x0f)] ++ hb ++ tl) (d := p.token)
          (pieces_skip (lb ++ pm ++ skip ++ ct ++ tag) (ih a' h2))
        simpa [packetToken] using this
      | _ => cases k
    · cases p with
      | versionNegotiation v =>
        obtain ⟨rfl, -⟩ := (C38_version_negotiation bp' c _ _ v).mp h1
        unfold decodePackets at h2
        cases h2
        exact .nil
      | _ => cases k

/-- C148. -/
theorem C148_all : C148Statement := fun P hP => ⟨C148_parsed, C148_written, fun bp bp' c hr => C148_tokens P hP bp bp' c hr⟩

/-- C148 for the packets that a connection takes, with the plaintext in view: every piece of data of an Initial packet delivered is one of a plaintext that was opened with the keys. -/
theorem C148_initial (P : Prims) (hP : PrimLaws P) (bp bp' : Profile) (server : Bool) (v : Version) (d : U160) (n : Nat) (c0 : Connection)
    (h0 : Connection.new P server v d n = .ok c0) (ops : List ConnOp) (s s' : Stream) (p : PacketInitial) (h : decodeNextPacket bp' (c0.run bp ops).2 s = (.ok (.initial p), s')) :
    ∃ cid k out mid skip plain, cid.length = n ∧ beNat cid = cidVal d % 256 ^ n ∧ InitialKeys P (!server) cid k ∧ s = makeResultStream out ++ s' ∧
      Opened P k 0x0f p.header.headerByte mid p.packetNumberBytes skip p.packetNumber.toNat plain out ∧ Pieces (p.packetPayload.filterMap frameData) plain := by
  obtain ⟨cid, k, h1, h2, h3, out, hb, tl, lb, plain, skip, L, e, -, -, -, -, ho, -, hf⟩ := C33_initial P hP bp bp' server v d n c0 h0 ops s s' p h
  exact ⟨cid, k, out, _, skip, plain, h1, h2, h3, e, ho, C148_parsed plain _ hf⟩

/-- A payload with data in three of its five frames, and a datagram of three packets with the tokens `[7, 7]`, none and `[9]`. -/
example : (match (deserializeFrames (makeResultStream [0x01, 0x06, 0x00, 0x02, 5, 6, 0x00, 0x07, 0x01, 9, 0x08, 0x04, 3, 2, 1])).1 with
      | .ok fs => some (fs.length, fs.filterMap frameData)
      | _ => none) = some (5, [[5, 6], [9], [3, 2, 1]]) ∧
    Pieces [[5, 6], [9], [3, 2, 1]] [0x01, 0x06, 0x00, 0x02, 5, 6, 0x00, 0x07, 0x01, 9, 0x08, 0x04, 3, 2, 1] ∧ ¬ Pieces [[5, 6], [6, 0]] [1, 5, 6, 0] :=
  ⟨by decide +kernel, .cons (gap := [0x01, 0x06, 0x00, 0x02]) (.cons (gap := [0x00, 0x07, 0x01]) (.cons (gap := [0x08, 0x04]) (rest := []) .nil)),
    fun h => absurd (pieces_sublist h) (by decide)⟩
example : Connection.Reachable toy .debug exConn ∧
    (okPackets (decodePackets .debug exConn (makeResultStream
      (exSealedWith exKeys 0xc3 [0, 0, 0, 1, 8, 1, 2, 3, 4, 5, 6, 7, 8, 2, 0x11, 0x22, 2, 7, 7] [1] ++ exSealed 0xc3 [1] ++
        exSealedWith exKeys 0xc3 [0, 0, 0, 1, 8, 1, 2, 3, 4, 5, 6, 7, 8, 2, 0x11, 0x22, 1, 9] [1]))).1).filterMap packetToken = [[7, 7], [], [9]] :=
  ⟨exConn_reachable, by decide +kernel⟩

end QuicSea
