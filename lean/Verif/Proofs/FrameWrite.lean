import Verif.Proofs.FrameList
/-
Frame writers against the grammar of `Spec.Frame`.
-/
namespace QuicSea
open Spec (beNat IsVarInt cidVal AckRangesWire EcnWire FrameBody FrameWire FramesWire IntsFit intFields Consistent WellFormed varIntLimit)

theorem Out.ok_bind {α β : Type} (a : α) (f : α → Out β) : (Out.ok a >>= f) = f a := rfl
theorem Out.bind_eq_ok {x : Out α} {f : α → Out β} {b} (h : (x >>= f) = .ok b) : ∃ a, x = .ok a ∧ f a = .ok b := by
  cases x with
  | ok a => exact ⟨a, rfl, h⟩
  | err e => cases h
  | panic w => cases h

theorem rangesToBytes_wire {rs : List AckRange} {b} (h : FrameAck.rangesToBytes rs = .ok b) : AckRangesWire rs b := by
  induction rs generalizing b with
  | nil => cases h; exact .nil
  | cons r rs ih =>
    obtain ⟨a, h1, h⟩ := Out.bind_eq_ok h
    obtain ⟨c, h2, h⟩ := Out.bind_eq_ok h
    cases h
    obtain ⟨b1, h3, h1⟩ := Out.bind_eq_ok h1
    obtain ⟨b2, h4, h1⟩ := Out.bind_eq_ok h1
    cases h1
    rw [List.append_assoc]
    exact .cons (encodeVarInt_isVarInt h3) (encodeVarInt_isVarInt h4) (ih h2)
theorem ecnToBytes_wire {e : EcnCounts} {b} (h : e.toBytes = .ok b) : EcnWire e b := by
  obtain ⟨b1, h1, h⟩ := Out.bind_eq_ok h
  obtain ⟨b2, h2, h⟩ := Out.bind_eq_ok h
  obtain ⟨b3, h3, h⟩ := Out.bind_eq_ok h
  cases h
  exact ⟨b1, b2, b3, encodeVarInt_isVarInt h1, encodeVarInt_isVarInt h2, encodeVarInt_isVarInt h3, by simp⟩

theorem streamType_eq (o l f : Bool) : ((0x08 : U8) ||| (if o then 0x04 else 0x00) ||| (if l then 0x02 else 0x00) |||
    (if f then 0x01 else 0x00)) = BitVec.ofNat 8 (0x08 + (if o then 4 else 0) + (if l then 2 else 0) + (if f then 1 else 0)) := by
  revert o l f; decide

/-- What is written is the RFC 9000 encoding of the frame. -/
theorem toBytes_wire {f : Frame} {e : Bool} {bs : Bytes} (hc : Consistent f) (h : f.toBytes e = .ok bs) : FrameWire e f bs := by
  have V := @encodeVarInt_isVarInt
  cases f with
  | padding => cases h; exact ⟨0, [], .padding, by decide, rfl⟩
  | ping => cases h; exact ⟨1, [], .ping, by decide, rfl⟩
  | handshakeDone => cases h; exact ⟨0x1e, [], .handshakeDone, by decide, rfl⟩
  | ack x =>
    rcases x with ⟨la, ad, rc, fr, rs, ec⟩
    obtain ⟨b5, h5, h⟩ := Out.bind_eq_ok h
    cases ec with
    | none =>
      obtain ⟨_, hp, h⟩ := Out.bind_eq_ok h; cases hp
      obtain ⟨b1, h1, h⟩ := Out.bind_eq_ok h
      obtain ⟨b2, h2, h⟩ := Out.bind_eq_ok h
      obtain ⟨b3, h3, h⟩ := Out.bind_eq_ok h
      obtain ⟨b4, h4, h⟩ := Out.bind_eq_ok h
      cases h
      exact ⟨2, b1 ++ (b2 ++ (b3 ++ (b4 ++ b5))), .ack (V h1) (V h2) (V h3) (V h4) (rangesToBytes_wire h5) hc rfl, by decide, by simp⟩
    | some e =>
      obtain ⟨b6, h6, h⟩ := Out.bind_eq_ok h
      obtain ⟨_, hp, h⟩ := Out.bind_eq_ok h; cases hp
      obtain ⟨b1, h1, h⟩ := Out.bind_eq_ok h
      obtain ⟨b2, h2, h⟩ := Out.bind_eq_ok h
      obtain ⟨b3, h3, h⟩ := Out.bind_eq_ok h
      obtain ⟨b4, h4, h⟩ := Out.bind_eq_ok h
      cases h
      exact ⟨3, b1 ++ (b2 ++ (b3 ++ (b4 ++ (b5 ++ b6)))),
        .ackEcn (V h1) (V h2) (V h3) (V h4) (rangesToBytes_wire h5) (ecnToBytes_wire h6) hc rfl, by decide, by simp⟩
  | resetStream x =>
    obtain ⟨b1, h1, h⟩ := Out.bind_eq_ok h
    obtain ⟨b2, h2, h⟩ := Out.bind_eq_ok h
    obtain ⟨b3, h3, h⟩ := Out.bind_eq_ok h
    cases h
    exact ⟨4, _, .resetStream (V h1) (V h2) (V h3), by decide, by simp⟩
  | stopSending x =>
    obtain ⟨b1, h1, h⟩ := Out.bind_eq_ok h
    obtain ⟨b2, h2, h⟩ := Out.bind_eq_ok h
    cases h
    exact ⟨5, _, .stopSending (V h1) (V h2), by decide, by simp⟩
  | crypto x =>
    obtain ⟨b1, h1, h⟩ := Out.bind_eq_ok h
    obtain ⟨b2, h2, h⟩ := Out.bind_eq_ok h
    cases h
    exact ⟨6, _, .crypto (V h1) (V h2) hc.symm, by decide, by simp⟩
  | newToken x =>
    obtain ⟨b1, h1, h⟩ := Out.bind_eq_ok h
    cases h
    exact ⟨7, _, .newToken (V h1) hc.symm, by decide, by simp⟩
  | stream x =>
    have hc : x.streamData.length = x.length.toNat := Eq.symm hc
    have h : x.toBytes (!e) = .ok bs := h
    rcases x with ⟨id, off, len, data, fin⟩
    unfold FrameStream.toBytes at h
    dsimp only at h
    rw [streamType_eq] at h
    obtain ⟨b1, h1, h⟩ := Out.bind_eq_ok h
    have ht : ∀ o l f : Bool, 0x08 + (if o then 4 else 0) + (if l then 2 else 0) + (if f then 1 else 0) < 64 := by decide
    by_cases ho : off = 0
    · subst ho
      obtain ⟨_, hp, h⟩ := Out.bind_eq_ok h; cases hp
      cases e with
      | false =>
        obtain ⟨b3, h3, h⟩ := Out.bind_eq_ok h
        cases h
        exact ⟨_, b1 ++ ([] ++ (b3 ++ data)), .stream (x := ⟨id, 0, len, data, fin⟩) (hasOffset := false) (hasLength := true)
          (V h1) ⟨rfl, rfl⟩ (V h3) hc, ht _ _ _, by simp⟩
      | true =>
        obtain ⟨_, hp, h⟩ := Out.bind_eq_ok h; cases hp
        cases h
        exact ⟨_, b1 ++ ([] ++ ([] ++ data)), .stream (x := ⟨id, 0, len, data, fin⟩) (hasOffset := false) (hasLength := false)
          (V h1) ⟨rfl, rfl⟩ ⟨rfl, rfl⟩ hc, ht _ _ _, by simp⟩
    · have hd : decide (off ≠ 0) = true := by simpa using ho
      rw [hd] at h
      obtain ⟨b2, h2, h⟩ := Out.bind_eq_ok h
      cases e with
      | false =>
        obtain ⟨b3, h3, h⟩ := Out.bind_eq_ok h
        cases h
        exact ⟨_, b1 ++ (b2 ++ (b3 ++ data)), .stream (x := ⟨id, off, len, data, fin⟩) (hasOffset := true) (hasLength := true)
          (V h1) (V h2) (V h3) hc, ht _ _ _, by simp⟩
      | true =>
        obtain ⟨_, hp, h⟩ := Out.bind_eq_ok h; cases hp
        cases h
        exact ⟨_, b1 ++ (b2 ++ ([] ++ data)), .stream (x := ⟨id, off, len, data, fin⟩) (hasOffset := true) (hasLength := false)
          (V h1) (V h2) ⟨rfl, rfl⟩ hc, ht _ _ _, by simp⟩
  | maxData x =>
    obtain ⟨b1, h1, h⟩ := Out.bind_eq_ok h
    cases h
    exact ⟨0x10, _, .maxData (V h1), by decide, by simp⟩
  | maxStreamData x =>
    obtain ⟨b1, h1, h⟩ := Out.bind_eq_ok h
    obtain ⟨b2, h2, h⟩ := Out.bind_eq_ok h
    cases h
    exact ⟨0x11, _, .maxStreamData (V h1) (V h2), by decide, by simp⟩
  | maxStreams x =>
    obtain ⟨b1, h1, h⟩ := Out.bind_eq_ok h
    cases h
    rcases x with ⟨v, u⟩
    cases u with
    | false => exact ⟨0x12, _, .maxStreams (x := ⟨v, false⟩) (V h1), by decide, by simp⟩
    | true => exact ⟨0x13, _, .maxStreams (x := ⟨v, true⟩) (V h1), by decide, by simp⟩
  | dataBlocked x =>
    obtain ⟨b1, h1, h⟩ := Out.bind_eq_ok h
    cases h
    exact ⟨0x14, _, .dataBlocked (V h1), by decide, by simp⟩
  | streamDataBlocked x =>
    obtain ⟨b1, h1, h⟩ := Out.bind_eq_ok h
    obtain ⟨b2, h2, h⟩ := Out.bind_eq_ok h
    cases h
    exact ⟨0x15, _, .streamDataBlocked (V h1) (V h2), by decide, by simp⟩
  | streamsBlocked x =>
    obtain ⟨b1, h1, h⟩ := Out.bind_eq_ok h
    cases h
    rcases x with ⟨v, u⟩
    cases u with
    | false => exact ⟨0x16, _, .streamsBlocked (x := ⟨v, false⟩) (V h1), by decide, by simp⟩
    | true => exact ⟨0x17, _, .streamsBlocked (x := ⟨v, true⟩) (V h1), by decide, by simp⟩
  | newConnectionId x =>
    obtain ⟨b1, h1, h⟩ := Out.bind_eq_ok h
    obtain ⟨b2, h2, h⟩ := Out.bind_eq_ok h
    obtain ⟨b3, h3, h⟩ := Out.bind_eq_ok h
    cases h
    obtain ⟨c1, c2, c3⟩ := hc
    obtain ⟨b, k1, k2, k3⟩ := toVarBytes_spec x.connectionId x.length.toNat c2
    rw [h3] at k1
    cases k1
    rw [Nat.mod_eq_of_lt c3] at k3
    exact ⟨0x18, _, .newConnectionId (V h1) (V h2) c1 c2 k2 k3 (toBeBytes_length _ _) (beNat_toBeBytes' 16 _), by decide, by simp⟩
  | retireConnectionId x =>
    obtain ⟨b1, h1, h⟩ := Out.bind_eq_ok h
    cases h
    exact ⟨0x19, _, .retireConnectionId (V h1), by decide, by simp⟩
  | pathChallenge x =>
    cases h
    exact ⟨0x1a, _, .pathChallenge (toBeBytes_length _ _) (beNat_toBeBytes' 8 _), by decide, rfl⟩
  | pathResponse x =>
    cases h
    exact ⟨0x1b, _, .pathResponse (toBeBytes_length _ _) (beNat_toBeBytes' 8 _), by decide, rfl⟩
  | connectionClose x =>
    obtain ⟨c1, c2⟩ := hc
    rcases x with ⟨ec, ft, rl, rp, ia⟩
    cases ft with
    | none =>
      have : ia = true := by cases ia <;> simp_all
      subst this
      obtain ⟨_, hp, h⟩ := Out.bind_eq_ok h; cases hp
      obtain ⟨b1, h1, h⟩ := Out.bind_eq_ok h
      obtain ⟨b3, h3, h⟩ := Out.bind_eq_ok h
      cases h
      exact ⟨0x1d, b1 ++ (b3 ++ rp), .connectionCloseApp (V h1) rfl (V h3) c1.symm rfl, by decide, by simp⟩
    | some t =>
      have : ia = false := by cases ia <;> simp_all
      subst this
      obtain ⟨b2, h2, h⟩ := Out.bind_eq_ok h
      obtain ⟨b1, h1, h⟩ := Out.bind_eq_ok h
      obtain ⟨b3, h3, h⟩ := Out.bind_eq_ok h
      cases h
      exact ⟨0x1c, b1 ++ (b2 ++ (b3 ++ rp)), .connectionCloseTransport (V h1) rfl (V h2) (V h3) c1.symm rfl, by decide, by simp⟩

/-! success and failure -/
/-- Either the value is encodable, or encoding is the overflow error. -/
theorem enc_cases (x : U64) : (∃ b, encodeVarInt x = .ok b ∧ x.toNat < varIntLimit) ∨
    (encodeVarInt x = .err (.internalError "var int overflow") ∧ ¬ x.toNat < varIntLimit) := by
  by_cases h : x.toNat < 2 ^ 62
  · obtain ⟨b, hb⟩ := encodeVarInt_ok x h
    exact .inl ⟨b, hb, h⟩
  · exact .inr ⟨encodeVarInt_overflow x (by omega), h⟩

/-- A computation that succeeds exactly when `p` holds and otherwise reports the overflow. -/
def OkIff (x : Out α) (p : Prop) : Prop :=
  (∃ a, x = .ok a ∧ p) ∨ (x = .err (.internalError "var int overflow") ∧ ¬ p)
theorem OkIff.enc (x : U64) : OkIff (encodeVarInt x) (x.toNat < varIntLimit) := enc_cases x
theorem OkIff.pure (a : α) : OkIff (Pure.pure a : Out α) True := .inl ⟨a, rfl, trivial⟩
theorem OkIff.ok {x : Out α} {a} (h : x = .ok a) : OkIff x True := .inl ⟨a, h, trivial⟩
theorem OkIff.bind {x : Out α} {f : α → Out β} {p q : Prop} (h1 : OkIff x p) (h2 : ∀ a, OkIff (f a) q) : OkIff (x >>= f) (p ∧ q) := by
  rcases h1 with ⟨a, rfl, hp⟩ | ⟨rfl, hp⟩
  · rcases h2 a with ⟨b, hb, hq⟩ | ⟨hb, hq⟩
    · exact .inl ⟨b, hb, hp, hq⟩
    · exact .inr ⟨hb, fun h => hq h.2⟩
  · exact .inr ⟨rfl, fun h => hp h.1⟩
theorem OkIff.congr {x : Out α} {p q : Prop} (h : OkIff x p) (e : p ↔ q) : OkIff x q := by
  unfold OkIff at *
  rw [← e]; exact h

theorem OkIff.ranges (rs : List AckRange) :
    OkIff (FrameAck.rangesToBytes rs) (∀ v ∈ rs.flatMap fun r => [r.gap, r.ackRangeLength], v.toNat < varIntLimit) := by
  induction rs with
  | nil => exact (OkIff.pure _).congr (by simp)
  | cons r rs ih =>
    refine (OkIff.bind (x := r.toBytes) (OkIff.bind (.enc _) fun _ => OkIff.bind (.enc _) fun _ => .pure _) fun _ => ih.bind fun _ => .pure _).congr ?_
    simp only [List.flatMap_cons, List.mem_append, List.mem_cons, List.not_mem_nil, or_false]
    constructor
    · rintro ⟨⟨h1, h2, _⟩, h3, _⟩ v ((rfl | rfl) | hv)
      · exact h1
      · exact h2
      · exact h3 v hv
    · intro h
      exact ⟨⟨h _ (.inl (.inl rfl)), h _ (.inl (.inr rfl)), trivial⟩, fun v hv => h v (.inr hv), trivial⟩

theorem toBytes_okIff (f : Frame) (e : Bool) (hcid : ∀ x, f = .newConnectionId x → x.length.toNat ≤ 20) :
    OkIff (f.toBytes e) (IntsFit (!e) f) := by
  unfold IntsFit
  cases f with
  | padding => exact (OkIff.pure _).congr (by simp [intFields])
  | ping => exact (OkIff.pure _).congr (by simp [intFields])
  | handshakeDone => exact (OkIff.pure _).congr (by simp [intFields])
  | pathChallenge x => exact (OkIff.pure _).congr (by simp [intFields])
  | pathResponse x => exact (OkIff.pure _).congr (by simp [intFields])
  | ack x =>
    rcases x with ⟨la, ad, rc, fr, rs, ec⟩
    cases ec with
    | none =>
      refine ((OkIff.ranges rs).bind fun _ => (OkIff.enc la).bind fun _ => (OkIff.enc ad).bind fun _ => (OkIff.enc rc).bind fun _ =>
        (OkIff.enc fr).bind fun _ => .pure _).congr ?_
      simp only [intFields, List.mem_append, List.mem_cons, List.not_mem_nil, or_false, or_imp, forall_and]
      simp only [forall_eq]
      grind
    | some e =>
      refine ((OkIff.ranges rs).bind fun _ => (OkIff.bind (x := e.toBytes) ((OkIff.enc _).bind fun _ => (OkIff.enc _).bind fun _ => (OkIff.enc _).bind fun _ => .pure _)
        fun _ => (OkIff.enc la).bind fun _ => (OkIff.enc ad).bind fun _ => (OkIff.enc rc).bind fun _ =>
        (OkIff.enc fr).bind fun _ => .pure _)).congr ?_
      simp only [intFields, List.mem_append, List.mem_cons, List.not_mem_nil, or_false, or_imp, forall_and]
      simp only [forall_eq]
      grind
  | resetStream x =>
    exact ((OkIff.enc _).bind fun _ => (OkIff.enc _).bind fun _ => (OkIff.enc _).bind fun _ => .pure _).congr (by simp [intFields])
  | stopSending x => exact ((OkIff.enc _).bind fun _ => (OkIff.enc _).bind fun _ => .pure _).congr (by simp [intFields])
  | crypto x => exact ((OkIff.enc _).bind fun _ => (OkIff.enc _).bind fun _ => .pure _).congr (by simp [intFields])
  | newToken x => exact ((OkIff.enc _).bind fun _ => .pure _).congr (by simp [intFields])
  | stream x =>
    show OkIff (x.toBytes (!e)) _
    rcases x with ⟨id, off, len, data, fin⟩
    unfold FrameStream.toBytes
    dsimp only
    refine (OkIff.bind (p := id.toNat < varIntLimit) (q := off.toNat < varIntLimit ∧ (e = false → len.toNat < varIntLimit)) (OkIff.enc id) fun b1 => ?_).congr ?_
    · by_cases ho : off = 0
      · subst ho
        cases e with
        | true => exact (OkIff.pure _).congr (by simp [varIntLimit])
        | false => exact ((OkIff.enc len).bind fun _ => .pure _).congr (by simp [varIntLimit])
      · have hd : decide (off ≠ 0) = true := by simpa using ho
        rw [hd]
        refine (OkIff.enc off).bind fun b2 => ?_
        cases e with
        | true => exact (OkIff.pure _).congr (by simp)
        | false => exact ((OkIff.enc len).bind fun _ => .pure _).congr (by simp)
    · cases e <;> simp [intFields]
  | maxData x => exact ((OkIff.enc _).bind fun _ => .pure _).congr (by simp [intFields])
  | maxStreamData x => exact ((OkIff.enc _).bind fun _ => (OkIff.enc _).bind fun _ => .pure _).congr (by simp [intFields])
  | maxStreams x => exact ((OkIff.enc _).bind fun _ => .pure _).congr (by simp [intFields])
  | dataBlocked x => exact ((OkIff.enc _).bind fun _ => .pure _).congr (by simp [intFields])
  | streamDataBlocked x => exact ((OkIff.enc _).bind fun _ => (OkIff.enc _).bind fun _ => .pure _).congr (by simp [intFields])
  | streamsBlocked x => exact ((OkIff.enc _).bind fun _ => .pure _).congr (by simp [intFields])
  | newConnectionId x =>
    obtain ⟨b, hb, _⟩ := toVarBytes_spec x.connectionId x.length.toNat (hcid x rfl)
    exact ((OkIff.enc _).bind fun _ => (OkIff.enc _).bind fun _ => (OkIff.ok hb).bind fun _ => .pure _).congr (by simp [intFields])
  | retireConnectionId x => exact ((OkIff.enc _).bind fun _ => .pure _).congr (by simp [intFields])
  | connectionClose x =>
    rcases x with ⟨ec, ft, rl, rp, ia⟩
    cases ft with
    | none => exact ((OkIff.enc _).bind fun _ => (OkIff.enc _).bind fun _ => .pure _).congr (by simp [intFields])
    | some t =>
      exact ((OkIff.enc _).bind fun _ => (OkIff.enc _).bind fun _ => (OkIff.enc _).bind fun _ => .pure _).congr (by
        simp only [intFields, List.cons_append, List.nil_append, List.mem_cons, List.not_mem_nil, or_false, forall_eq_or_imp, forall_eq]
        grind)

/-! lists -/
theorem serializeFrames_cons (f : Frame) (fs : List Frame) (e : Bool) :
    serializeFrames (f :: fs) e = (do
      let a ← f.toBytes (e && fs.isEmpty)
      let b ← serializeFrames fs e
      pure (a ++ b)) := rfl

end QuicSea
