import Verif.Proofs.FrameWrite
/-
A parser complete for the whole grammar of `Spec.Frame` (the model's parser with the CRYPTO and STREAM bodies corrected). It is not part
of the model of the code: it is the tool to show that the grammar is unambiguous.
-/
namespace QuicSea
open Spec (beNat IsVarInt cidVal FrameBody FrameWire FramesWire Consistent IntsFit WellFormed)

def refCrypto : Rd FrameCrypto := do
  let offset ← varIntFromStream
  let length ← varIntFromStream
  let cryptoData ← varBytesFromStream length.toNat
  pure { offset, length, cryptoData }
def refOffset (present : Bool) : Rd U64 := if present then varIntFromStream else pure 0
def refData (hasLength : Bool) : Rd Bytes :=
  if hasLength then varIntFromStream >>= fun l => varBytesFromStream l.toNat else allBytesFromStream
def refStream (t : Nat) : Rd FrameStream :=
  varIntFromStream >>= fun streamId => refOffset (decide (t / 4 % 2 = 1)) >>= fun offset => refData (decide (t / 2 % 2 = 1)) >>= fun data =>
  pure ⟨streamId, offset, BitVec.ofNat 64 data.length, data, decide (t % 2 = 1)⟩
def refBody (t : Nat) : Rd Frame :=
  if t = 6 then refCrypto >>= fun x => pure (.crypto x)
  else if 8 ≤ t ∧ t ≤ 15 then refStream t >>= fun x => pure (.stream x)
  else deserializeFrameBody (BitVec.ofNat 8 t)

theorem _root_.Spec.FrameBody.mono {l : Bool} {f : Frame} {t : Nat} {b : Bytes} (h : FrameBody false f t b) : FrameBody l f t b := by
  cases h with
  | padding => exact .padding
  | ping => exact .ping
  | ack h1 h2 h3 h4 h5 h6 h7 => exact .ack h1 h2 h3 h4 h5 h6 h7
  | ackEcn h1 h2 h3 h4 h5 h6 h7 h8 => exact .ackEcn h1 h2 h3 h4 h5 h6 h7 h8
  | resetStream h1 h2 h3 => exact .resetStream h1 h2 h3
  | stopSending h1 h2 => exact .stopSending h1 h2
  | crypto h1 h2 h3 => exact .crypto h1 h2 h3
  | newToken h1 h2 => exact .newToken h1 h2
  | @stream x ho hl b1 b2 b3 h1 h2 h3 h4 =>
    refine .stream h1 h2 ?_ h4
    cases hl with
    | false => cases h3.2
    | true => exact h3
  | maxData h1 => exact .maxData h1
  | maxStreamData h1 h2 => exact .maxStreamData h1 h2
  | maxStreams h1 => exact .maxStreams h1
  | dataBlocked h1 => exact .dataBlocked h1
  | streamDataBlocked h1 h2 => exact .streamDataBlocked h1 h2
  | streamsBlocked h1 => exact .streamsBlocked h1
  | newConnectionId h1 h2 h3 h4 h5 h6 h7 h8 => exact .newConnectionId h1 h2 h3 h4 h5 h6 h7 h8
  | retireConnectionId h1 => exact .retireConnectionId h1
  | pathChallenge h1 h2 => exact .pathChallenge h1 h2
  | pathResponse h1 h2 => exact .pathResponse h1 h2
  | connectionCloseTransport h1 h2 h3 h4 h5 h6 => exact .connectionCloseTransport h1 h2 h3 h4 h5 h6
  | connectionCloseApp h1 h2 h3 h4 h5 => exact .connectionCloseApp h1 h2 h3 h4 h5
  | handshakeDone => exact .handshakeDone

theorem streamFlags_nat (o l f : Bool) :
    (decide ((0x08 + (if o then 4 else 0) + (if l then 2 else 0) + (if f then 1 else 0)) / 4 % 2 = 1) = o) ∧
    (decide ((0x08 + (if o then 4 else 0) + (if l then 2 else 0) + (if f then 1 else 0)) / 2 % 2 = 1) = l) ∧
    (decide ((0x08 + (if o then 4 else 0) + (if l then 2 else 0) + (if f then 1 else 0)) % 2 = 1) = f) ∧
    8 ≤ 0x08 + (if o then 4 else 0) + (if l then 2 else 0) + (if f then 1 else 0) ∧
    0x08 + (if o then 4 else 0) + (if l then 2 else 0) + (if f then 1 else 0) ≤ 15 := by
  revert o l f; decide

/-- Frames other than STREAM have the same body wherever they stand, and only STREAM types are 8..15. -/
theorem _root_.Spec.FrameBody.notStream {l : Bool} {f : Frame} {t : Nat} {b : Bytes} (h : FrameBody l f t b)
    (h8 : ¬ (8 ≤ t ∧ t ≤ 15)) : ∀ l', FrameBody l' f t b := by
  intro l'
  cases l with
  | false => exact h.mono
  | true =>
    refine FrameBody.mono ?_
    cases h with
    | stream h1 h2 h3 h4 => exact absurd ⟨(streamFlags_nat _ _ _).2.2.2.1, (streamFlags_nat _ _ _).2.2.2.2⟩ h8
    | padding => exact .padding
    | ping => exact .ping
    | ack h1 h2 h3 h4 h5 h6 h7 => exact .ack h1 h2 h3 h4 h5 h6 h7
    | ackEcn h1 h2 h3 h4 h5 h6 h7 h9 => exact .ackEcn h1 h2 h3 h4 h5 h6 h7 h9
    | resetStream h1 h2 h3 => exact .resetStream h1 h2 h3
    | stopSending h1 h2 => exact .stopSending h1 h2
    | crypto h1 h2 h3 => exact .crypto h1 h2 h3
    | newToken h1 h2 => exact .newToken h1 h2
    | maxData h1 => exact .maxData h1
    | maxStreamData h1 h2 => exact .maxStreamData h1 h2
    | maxStreams h1 => exact .maxStreams h1
    | dataBlocked h1 => exact .dataBlocked h1
    | streamDataBlocked h1 h2 => exact .streamDataBlocked h1 h2
    | streamsBlocked h1 => exact .streamsBlocked h1
    | newConnectionId h1 h2 h3 h4 h5 h6 h7 h9 => exact .newConnectionId h1 h2 h3 h4 h5 h6 h7 h9
    | retireConnectionId h1 => exact .retireConnectionId h1
    | pathChallenge h1 h2 => exact .pathChallenge h1 h2
    | pathResponse h1 h2 => exact .pathResponse h1 h2
    | connectionCloseTransport h1 h2 h3 h4 h5 h6 => exact .connectionCloseTransport h1 h2 h3 h4 h5 h6
    | connectionCloseApp h1 h2 h3 h4 h5 => exact .connectionCloseApp h1 h2 h3 h4 h5
    | handshakeDone => exact .handshakeDone
/-- A type is one of the RFC's. -/
theorem _root_.Spec.FrameBody.type_le {l : Bool} {f : Frame} {t : Nat} {b : Bytes} (h : FrameBody l f t b) : t ≤ 0x1e := by
  cases h with
  | stream => exact Nat.le_trans (streamFlags_nat _ _ _).2.2.2.2 (by decide)
  | maxStreams => split <;> decide
  | streamsBlocked => split <;> decide
  | _ => decide

theorem ref_complete {l : Bool} {f : Frame} {t : Nat} {b : Bytes} {rest : Stream} (h : FrameBody l f t b) (hr : l = true → rest = []) :
    refBody t (makeResultStream b ++ rest) = (.ok f, rest) := by
  unfold refBody
  by_cases h6 : t = 6
  · subst h6
    rw [if_pos rfl]
    generalize ht : 6 = t at h
    cases h with
    | crypto h1 h2 h3 =>
      exact Reads.map (m := refCrypto) (f := Frame.crypto) (Reads.bind (varInt_reads h1) (Reads.bind (varInt_reads h2) (Reads.map (varBytes_reads' h3)))) rest
    | stream => have := (streamFlags_nat ‹_› ‹_› ‹_›).2.2.2.1; omega
    | maxStreams => split at ht <;> omega
    | streamsBlocked => split at ht <;> omega
    | _ => omega
  · rw [if_neg h6]
    by_cases h8 : 8 ≤ t ∧ t ≤ 15
    · rw [if_pos h8]
      cases h with
      | @stream x ho hl b1 b2 b3 h1 h2 h3 h4 =>
        rcases x with ⟨id, off, len, data, fin⟩
        obtain ⟨f1, f2, f3, _, _⟩ := streamFlags_nat ho hl fin
        have hlen : BitVec.ofNat 64 data.length = len := by
          apply BitVec.eq_of_toNat_eq
          rw [BitVec.toNat_ofNat, h4]; exact Nat.mod_eq_of_lt len.isLt
        have key : refStream (0x08 + (if ho then 4 else 0) + (if hl then 2 else 0) + (if fin then 1 else 0))
            (makeResultStream (b1 ++ (b2 ++ (b3 ++ data))) ++ rest) = (.ok ⟨id, off, len, data, fin⟩, rest) := by
          unfold refStream
          rw [f1, f2, f3]
          simp only [makeResultStream_append, List.append_assoc]
          rw [Rd.bind_ok (varInt_reads h1 _)]
          have s2 : refOffset ho (makeResultStream b2 ++ (makeResultStream b3 ++ (makeResultStream data ++ rest)))
              = (.ok off, makeResultStream b3 ++ (makeResultStream data ++ rest)) := by
            cases ho with
            | true => exact varInt_reads h2 _
            | false => obtain ⟨rfl, h2⟩ := h2; have h2 : off = 0 := h2; subst h2; rfl
          have s3 : refData hl (makeResultStream b3 ++ (makeResultStream data ++ rest)) = (.ok data, rest) := by
            cases hl with
            | true =>
              rw [refData, if_pos rfl, Rd.bind_ok (varInt_reads h3 _)]
              exact varBytes_reads' h4 _
            | false =>
              obtain ⟨rfl, hl⟩ := h3
              rw [hr hl, List.append_nil]
              exact allBytes_run data
          rw [Rd.bind_ok s2, Rd.bind_ok s3, hlen]
          rfl
        rw [Rd.bind_ok key]
        rfl
      | maxStreams => split at h8 <;> omega
      | streamsBlocked => split at h8 <;> omega
      | _ => omega
    · rw [if_neg h8]
      have hle := h.type_le
      apply codeBody_complete
      rw [BitVec.toNat_ofNat, Nat.mod_eq_of_lt (by omega)]
      exact .std (h.notStream h8) h6 h8

theorem append_inj_left {a b r s : Bytes} (h : a ++ r = b ++ s) (hs : r = s) : a = b := by
  subst hs
  exact List.append_cancel_right h

/-- The grammar is unambiguous: bytes that start with an encoding of a frame determine the frame and where it ends. -/
theorem frameWire_unique {l1 l2 : Bool} {f g : Frame} {a b r s : Bytes} (h1 : FrameWire l1 f a) (h2 : FrameWire l2 g b)
    (hr : l1 = true → r = []) (hs : l2 = true → s = []) (h : a ++ r = b ++ s) : f = g ∧ a = b ∧ r = s := by
  obtain ⟨t, x, hx, ht, rfl⟩ := h1
  obtain ⟨u, y, hy, hu, rfl⟩ := h2
  rw [List.cons_append, List.cons_append] at h
  injection h with e1 e2
  have : t = u := by
    have := congrArg BitVec.toNat e1
    simp only [BitVec.toNat_ofNat] at this
    omega
  subst this
  have p1 := ref_complete (rest := makeResultStream r) hx (fun h => by rw [hr h]; rfl)
  have p2 := ref_complete (rest := makeResultStream s) hy (fun h => by rw [hs h]; rfl)
  rw [← makeResultStream_append] at p1 p2
  rw [e2, p2] at p1
  injection p1 with q1 q2
  injection q1 with q1
  have := makeResultStream_inj q2
  subst this
  exact ⟨q1.symm, by rw [List.append_cancel_right e2], rfl⟩
theorem frameWire_ne_nil {l : Bool} {f : Frame} {b : Bytes} (h : FrameWire l f b) : b ≠ [] := by
  obtain ⟨_, _, _, _, rfl⟩ := h; simp
theorem framesWire_unique {fs gs : List Frame} {b : Bytes} (h1 : FramesWire fs b) (h2 : FramesWire gs b) : fs = gs := by
  generalize hb : b = c at h2
  induction h1 generalizing gs c with
  | nil =>
    cases h2 with
    | nil => rfl
    | cons h _ => exfalso; exact frameWire_ne_nil h (List.append_eq_nil_iff.mp hb.symm).1
  | @cons f fs b bs hf _ ih =>
    cases h2 with
    | nil => exfalso; exact frameWire_ne_nil hf (List.append_eq_nil_iff.mp hb).1
    | @cons g gs b' bs' hg hgs =>
      obtain ⟨rfl, rfl, rfl⟩ := frameWire_unique hf hg (fun h => by simpa using h) (fun h => by simpa using h) hb
      rw [ih _ rfl hgs]

/-- A serialized list is its RFC 9000 encoding. -/
theorem serializeFrames_wire {fs : List Frame} {e : Bool} {bs : Bytes} (hc : ∀ f ∈ fs, Consistent f) (h : serializeFrames fs e = .ok bs) :
    FramesWire fs bs := by
  induction fs generalizing bs with
  | nil => cases h; exact .nil
  | cons f fs ih =>
    obtain ⟨a, h1, h⟩ := Out.bind_eq_ok h
    obtain ⟨b, h2, h⟩ := Out.bind_eq_ok h
    cases h
    have ihw := ih (fun f hf => hc f (List.mem_cons_of_mem _ hf)) h2
    refine .cons ?_ ihw
    have hw := toBytes_wire (hc f List.mem_cons_self) h1
    cases he : (e && fs.isEmpty) with
    | false =>
      rw [he] at hw
      obtain ⟨t, body, hb, ht, rfl⟩ := hw
      exact ⟨t, body, hb.mono, ht, rfl⟩
    | true =>
      rw [he] at hw
      have : fs = [] := by simp at he; exact he.2
      subst this
      cases h2
      exact hw

end QuicSea
