import Verif.Props.VarInt
import Verif.Props.Frame
/-
C93: what was parsed can be written and parsed again without loss and without taking more bytes.
C94: what is written is the shortest encoding, and the only one of that length.
-/
namespace QuicSea
open Spec (beNat IsVarInt cidVal AckRangesWire EcnWire FrameBody FrameWire FramesWire IntsFit Consistent WellFormed)

/-- `b` is no longer than `b'`, and the same if they are equally long. -/
def Shortest (b b' : Bytes) : Prop := b.length ≤ b'.length ∧ (b'.length ≤ b.length → b' = b)

theorem Shortest.refl (b : Bytes) : Shortest b b := ⟨Nat.le_refl _, fun _ => rfl⟩
theorem Shortest.of_lt {b b' : Bytes} (h : b.length < b'.length) : Shortest b b' := ⟨by omega, fun h' => by omega⟩
theorem Shortest.append {a a' b b' : Bytes} (h1 : Shortest a a') (h2 : Shortest b b') : Shortest (a ++ b) (a' ++ b') := by
  refine ⟨?_, fun h => ?_⟩
  · have := h1.1; have := h2.1
    simp only [List.length_append]; omega
  · have := h1.1; have := h2.1
    simp only [List.length_append] at h
    rw [h1.2 (by omega), h2.2 (by omega)]
theorem Shortest.cons {x : U8} {b b' : Bytes} (h : Shortest b b') : Shortest (x :: b) (x :: b') := (Shortest.refl [x]).append h
theorem Shortest.cons' {x y : U8} {b b' : Bytes} (e : y = x) (h : Shortest b b') : Shortest (x :: b) (y :: b') := by subst e; exact h.cons
theorem Shortest.enc {x : U64} {b b' : Bytes} (h : encodeVarInt x = .ok b) (h' : IsVarInt b' x.toNat) : Shortest b b' := by
  obtain ⟨h1, h2⟩ := C03_varint_encode_minimal x b h
  refine ⟨h2 b' h', fun hl => ?_⟩
  have hl : b'.length = b.length := Nat.le_antisymm hl (h2 b' h')
  obtain ⟨k, hk, l1, -, e1⟩ := h1
  obtain ⟨j, hj, l2, -, e2⟩ := h'
  have hkj : j = k := by
    have : 2 ^ j = 2 ^ k := by rw [← l1, ← l2, hl]
    exact (Nat.pow_right_inj (by decide)).mp this
  subst hkj
  exact beNat_inj hl (by rw [e1, e2])
theorem Shortest.fixed {b b' : Bytes} (hl : b'.length = b.length) (h : beNat b' = beNat b) : Shortest b b' :=
  ⟨by omega, fun _ => beNat_inj hl h⟩

theorem ranges_shortest {rs : List AckRange} {b b' : Bytes} (h : FrameAck.rangesToBytes rs = .ok b) (h' : AckRangesWire rs b') :
    Shortest b b' := by
  induction h' generalizing b with
  | nil => cases h; exact .refl _
  | cons k1 k2 _ ih =>
    obtain ⟨a, h1, h⟩ := Out.bind_eq_ok h
    obtain ⟨c, h2, h⟩ := Out.bind_eq_ok h
    cases h
    obtain ⟨b1, h3, h1⟩ := Out.bind_eq_ok h1
    obtain ⟨b2, h4, h1⟩ := Out.bind_eq_ok h1
    cases h1
    rw [List.append_assoc]
    exact .append (.enc h3 k1) (.append (.enc h4 k2) (ih h2))
theorem ecn_shortest {e : EcnCounts} {b b' : Bytes} (h : e.toBytes = .ok b) (h' : EcnWire e b') : Shortest b b' := by
  obtain ⟨c1, c2, c3, k1, k2, k3, rfl⟩ := h'
  obtain ⟨b1, h1, h⟩ := Out.bind_eq_ok h
  obtain ⟨b2, h2, h⟩ := Out.bind_eq_ok h
  obtain ⟨b3, h3, h⟩ := Out.bind_eq_ok h
  cases h
  rw [List.append_assoc]
  exact .append (.enc h1 k1) (.append (.enc h2 k2) (.enc h3 k3))

theorem opt_bind {c : Bool} {x : Out Bytes} {k : Bytes → Out Bytes} {bs : Bytes} (h : (if c = true then x >>= k else (pure [] >>= k)) = .ok bs) :
    ∃ b, (if c = true then x else pure []) = .ok b ∧ k b = .ok bs := by
  cases c <;> exact Out.bind_eq_ok h

/-- C94 for one frame with a type written in one byte. -/
theorem toBytes_shortest {f : Frame} {e : Bool} {bs b' : Bytes} {t : Nat} (h : f.toBytes e = .ok bs) (h' : FrameBody e f t b') :
    Shortest bs (BitVec.ofNat 8 t :: b') := by
  cases h' with
  | padding => cases h; exact .refl _
  | ping => cases h; exact .refl _
  | handshakeDone => cases h; exact .refl _
  | @ack x c1 c2 c3 c4 c5 k1 k2 k3 k4 k5 _ hx =>
    rcases x with ⟨la, ad, rc, fr, rs, ec⟩
    obtain rfl : ec = none := hx
    obtain ⟨b5, h5, h⟩ := Out.bind_eq_ok h
    obtain ⟨_, hp, h⟩ := Out.bind_eq_ok h; cases hp
    obtain ⟨b1, h1, h⟩ := Out.bind_eq_ok h
    obtain ⟨b2, h2, h⟩ := Out.bind_eq_ok h
    obtain ⟨b3, h3, h⟩ := Out.bind_eq_ok h
    obtain ⟨b4, h4, h⟩ := Out.bind_eq_ok h
    cases h
    simp only [List.append_assoc, List.cons_append, List.nil_append, List.append_nil]
    exact .cons (.append (.enc h1 k1) (.append (.enc h2 k2) (.append (.enc h3 k3) (.append (.enc h4 k4) (ranges_shortest h5 k5)))))
  | @ackEcn x e' c1 c2 c3 c4 c5 c6 k1 k2 k3 k4 k5 k6 _ hx =>
    rcases x with ⟨la, ad, rc, fr, rs, ec⟩
    obtain rfl : ec = some e' := hx
    obtain ⟨b5, h5, h⟩ := Out.bind_eq_ok h
    obtain ⟨b6, h6, h⟩ := Out.bind_eq_ok h
    obtain ⟨_, hp, h⟩ := Out.bind_eq_ok h; cases hp
    obtain ⟨b1, h1, h⟩ := Out.bind_eq_ok h
    obtain ⟨b2, h2, h⟩ := Out.bind_eq_ok h
    obtain ⟨b3, h3, h⟩ := Out.bind_eq_ok h
    obtain ⟨b4, h4, h⟩ := Out.bind_eq_ok h
    cases h
    simp only [List.append_assoc, List.cons_append, List.nil_append]
    exact .cons (.append (.enc h1 k1) (.append (.enc h2 k2) (.append (.enc h3 k3) (.append (.enc h4 k4)
      (.append (ranges_shortest h5 k5) (ecn_shortest h6 k6))))))
  | resetStream k1 k2 k3 =>
    obtain ⟨b1, h1, h⟩ := Out.bind_eq_ok h
    obtain ⟨b2, h2, h⟩ := Out.bind_eq_ok h
    obtain ⟨b3, h3, h⟩ := Out.bind_eq_ok h
    cases h
    simp only [List.append_assoc, List.cons_append, List.nil_append]
    exact .cons (.append (.enc h1 k1) (.append (.enc h2 k2) (.enc h3 k3)))
  | stopSending k1 k2 =>
    obtain ⟨b1, h1, h⟩ := Out.bind_eq_ok h
    obtain ⟨b2, h2, h⟩ := Out.bind_eq_ok h
    cases h
    simp only [List.cons_append, List.nil_append]
    exact .cons (.append (.enc h1 k1) (.enc h2 k2))
  | crypto k1 k2 =>
    obtain ⟨b1, h1, h⟩ := Out.bind_eq_ok h
    obtain ⟨b2, h2, h⟩ := Out.bind_eq_ok h
    cases h
    simp only [List.append_assoc, List.cons_append, List.nil_append]
    exact .cons (.append (.enc h1 k1) (.append (.enc h2 k2) (.refl _)))
  | newToken k1 =>
    obtain ⟨b1, h1, h⟩ := Out.bind_eq_ok h
    cases h
    simp only [List.cons_append, List.nil_append]
    exact .cons (.append (.enc h1 k1) (.refl _))
  | @stream x hasOffset hasLength c1 c2 c3 k1 k2 k3 hc =>
    have h : x.toBytes (!e) = .ok bs := h
    rcases x with ⟨id, off, len, data, fin⟩
    unfold FrameStream.toBytes at h
    dsimp only at h k1 k2 k3 ⊢
    rw [streamType_eq] at h
    obtain ⟨b1, h1, h⟩ := Out.bind_eq_ok h
    have s1 := Shortest.enc h1 k1
    -- the offset and the length are written only where they must be
    have hoff : ∀ b2, (if decide (off ≠ 0) = true then encodeVarInt off else pure []) = .ok b2 →
        (hasOffset = decide (off ≠ 0) ∧ Shortest b2 c2) ∨ b2.length < c2.length := by
      intro b2 h2
      cases hasOffset with
      | true =>
        by_cases ho : off = 0
        · right
          rw [if_neg (by simpa using ho)] at h2
          cases h2
          exact IsVarInt.length_pos k2
        · left
          rw [if_pos (by simpa using ho)] at h2
          exact ⟨by simpa using ho, .enc h2 k2⟩
      | false =>
        obtain ⟨rfl, ho⟩ : c2 = [] ∧ off = 0 := k2
        left
        rw [if_neg (by simpa using ho)] at h2
        cases h2
        exact ⟨by simpa using ho, .refl _⟩
    have hlen : ∀ b3, (if (!e) = true then encodeVarInt len else pure []) = .ok b3 →
        (hasLength = (!e) ∧ Shortest b3 c3) ∨ b3.length < c3.length := by
      intro b3 h3
      cases hasLength with
      | true =>
        cases e with
        | true => right; cases h3; exact IsVarInt.length_pos k3
        | false => left; exact ⟨rfl, .enc h3 k3⟩
      | false =>
        obtain ⟨rfl, he⟩ : c3 = [] ∧ e = true := k3
        subst he
        cases h3
        left; exact ⟨rfl, .refl _⟩
    obtain ⟨b2, h2, h⟩ := opt_bind h
    obtain ⟨b3, h3, h⟩ := opt_bind h
    cases h
    have l1 := s1.1
    simp only [List.append_assoc, List.cons_append, List.nil_append]
    rcases hoff b2 h2 with ⟨e2, s2⟩ | l2
    · rcases hlen b3 h3 with ⟨e3, s3⟩ | l3
      · subst e2 e3
        exact .cons (.append s1 (.append s2 (.append s3 (.refl _))))
      · have := s2.1
        exact .of_lt (by simp only [List.length_cons, List.length_append]; omega)
    · have : b3.length ≤ c3.length := by
        rcases hlen b3 h3 with ⟨_, s3⟩ | l3
        · exact s3.1
        · omega
      exact .of_lt (by simp only [List.length_cons, List.length_append]; omega)
  | maxData k1 =>
    obtain ⟨b1, h1, h⟩ := Out.bind_eq_ok h
    cases h
    exact .cons (.enc h1 k1)
  | maxStreamData k1 k2 =>
    obtain ⟨b1, h1, h⟩ := Out.bind_eq_ok h
    obtain ⟨b2, h2, h⟩ := Out.bind_eq_ok h
    cases h
    simp only [List.cons_append, List.nil_append]
    exact .cons (.append (.enc h1 k1) (.enc h2 k2))
  | @maxStreams x c1 k1 =>
    obtain ⟨b1, h1, h⟩ := Out.bind_eq_ok h
    cases h
    rcases x with ⟨v, u⟩
    cases u <;> exact .cons' (by simp) (.enc h1 k1)
  | dataBlocked k1 =>
    obtain ⟨b1, h1, h⟩ := Out.bind_eq_ok h
    cases h
    exact .cons (.enc h1 k1)
  | streamDataBlocked k1 k2 =>
    obtain ⟨b1, h1, h⟩ := Out.bind_eq_ok h
    obtain ⟨b2, h2, h⟩ := Out.bind_eq_ok h
    cases h
    simp only [List.cons_append, List.nil_append]
    exact .cons (.append (.enc h1 k1) (.enc h2 k2))
  | @streamsBlocked x c1 k1 =>
    obtain ⟨b1, h1, h⟩ := Out.bind_eq_ok h
    cases h
    rcases x with ⟨v, u⟩
    cases u <;> exact .cons' (by simp) (.enc h1 k1)
  | @newConnectionId x c1 c2 c3 c4 k1 k2 l1 l2 k3 k4 k5 k6 =>
    obtain ⟨b1, h1, h⟩ := Out.bind_eq_ok h
    obtain ⟨b2, h2, h⟩ := Out.bind_eq_ok h
    obtain ⟨b3, h3, h⟩ := Out.bind_eq_ok h
    cases h
    obtain ⟨b, j1, j2, j3⟩ := toVarBytes_spec x.connectionId x.length.toNat l2
    rw [h3] at j1
    cases j1
    have hlt : cidVal x.connectionId < 256 ^ x.length.toNat := by rw [← k4, ← k3]; exact beNat_lt _
    rw [Nat.mod_eq_of_lt hlt] at j3
    simp only [List.append_assoc, List.cons_append, List.nil_append]
    exact .cons (.append (.enc h1 k1) (.append (.enc h2 k2) (.cons (.append (.fixed (k3.trans j2.symm) (k4.trans j3.symm))
      (.fixed (by rw [k5, toBeBytes_length]) (k6.trans (beNat_toBeBytes' 16 _).symm))))))
  | retireConnectionId k1 =>
    obtain ⟨b1, h1, h⟩ := Out.bind_eq_ok h
    cases h
    exact .cons (.enc h1 k1)
  | pathChallenge k1 k2 =>
    cases h
    exact .cons (b := toBeBytes 8 _) (.fixed (by rw [k1, toBeBytes_length]) (k2.trans (beNat_toBeBytes' 8 _).symm))
  | pathResponse k1 k2 =>
    cases h
    exact .cons (b := toBeBytes 8 _) (.fixed (by rw [k1, toBeBytes_length]) (k2.trans (beNat_toBeBytes' 8 _).symm))
  | @connectionCloseTransport x t c1 c2 c3 k1 hx k2 k3 _ ha =>
    rcases x with ⟨ec, ft, rl, rp, ia⟩
    obtain rfl : ft = some t := hx
    obtain rfl : ia = false := ha
    obtain ⟨b2, h2, h⟩ := Out.bind_eq_ok h
    obtain ⟨b1, h1, h⟩ := Out.bind_eq_ok h
    obtain ⟨b3, h3, h⟩ := Out.bind_eq_ok h
    cases h
    simp only [List.append_assoc, List.cons_append, List.nil_append]
    exact .cons' (by simp) (.append (.enc h1 k1) (.append (.enc h2 k2) (.append (.enc h3 k3) (.refl _))))
  | @connectionCloseApp x c1 c3 k1 hx k3 _ ha =>
    rcases x with ⟨ec, ft, rl, rp, ia⟩
    obtain rfl : ft = none := hx
    obtain rfl : ia = true := ha
    obtain ⟨_, hp, h⟩ := Out.bind_eq_ok h; cases hp
    obtain ⟨b1, h1, h⟩ := Out.bind_eq_ok h
    obtain ⟨b3, h3, h⟩ := Out.bind_eq_ok h
    cases h
    simp only [List.append_assoc, List.cons_append, List.nil_append]
    exact .cons' (by simp) (.append (.enc h1 k1) (.append (.enc h3 k3) (.refl _)))

/-- C94. No RFC 9000 encoding of the same frames as a whole packet payload is shorter than what `serialize_frames` writes, and no other is as short. -/
theorem C94_shortest (fs : List Frame) (bs bs' : Bytes) (h : serializeFrames fs true = .ok bs) (h' : FramesWire fs bs') :
    bs.length ≤ bs'.length ∧ (bs'.length = bs.length → bs' = bs) := by
  suffices hs : Shortest bs bs' from ⟨hs.1, fun e => hs.2 (Nat.le_of_eq e)⟩
  induction h' generalizing bs with
  | nil => cases h; exact .refl _
  | @cons f fs b bs' hf hfs ih =>
    rw [serializeFrames_cons] at h
    obtain ⟨a, h1, h⟩ := Out.bind_eq_ok h
    obtain ⟨c, h2, h⟩ := Out.bind_eq_ok h
    cases h
    refine .append ?_ (ih c h2)
    have he : bs'.isEmpty = fs.isEmpty := by
      cases hfs with
      | nil => rfl
      | cons hg _ =>
        obtain ⟨t, body, -, -, rfl⟩ := hg
        rfl
    rw [he] at hf
    obtain ⟨t, body, hb, -, rfl⟩ := hf
    exact toBytes_shortest h1 hb
/-- C94 for a single frame, at the end of its packet or not. -/
theorem C94_frame_shortest (f : Frame) (last : Bool) (bs bs' : Bytes) (h : f.toBytes last = .ok bs) (h' : FrameWire last f bs') :
    bs.length ≤ bs'.length ∧ (bs'.length = bs.length → bs' = bs) := by
  obtain ⟨t, body, hb, -, rfl⟩ := h'
  have := toBytes_shortest h hb
  exact ⟨this.1, fun e => this.2 (Nat.le_of_eq e)⟩

/-- 16384 needs four bytes; `MAX_DATA` also has an eight-byte form, and the last STREAM frame one with a Length. -/
example : serializeFrames [.maxData ⟨16384⟩, .stream ⟨4, 0, 1, [7], false⟩] true = .ok [0x10, 0x80, 0, 0x40, 0, 0x08, 4, 7] := by decide +kernel
example : FramesWire [.maxData ⟨5⟩, .stream ⟨4, 0, 1, [7], false⟩] ([0x10, 0x40, 5] ++ ([0x0a, 4, 1, 7] ++ [])) :=
  .cons ⟨0x10, _, .maxData (x := ⟨5⟩) (b1 := [0x40, 5]) ⟨1, by decide +kernel⟩, by decide, rfl⟩
    (.cons ⟨0x0a, _, .stream (x := ⟨4, 0, 1, [7], false⟩) (hasOffset := false) (hasLength := true) (b1 := [4]) (b2 := []) (b3 := [1])
      (isVarInt_one 4 (by decide)) ⟨rfl, rfl⟩ (isVarInt_one 1 (by decide)) rfl, by decide, rfl⟩ .nil)

/-! ## C93 -/

/-- What is written for a frame that was parsed is again in the language of the parser, and no longer. -/
theorem toBytes_reparses {f : Frame} {t : Nat} {b bs : Bytes} {rest : Stream} (hc : CodeBody f t b rest)
    (hf : Consistent f ∨ ∃ x, f = .crypto x ∧ x.cryptoData.length = x.length.toNat + x.offset.toNat ∧ x.offset ≠ 0)
    (h : f.toBytes rest.isEmpty = .ok bs) :
    bs.length ≤ b.length + 1 ∧ ∃ t' b', t' < 64 ∧ bs = BitVec.ofNat 8 t' :: b' ∧ CodeBody f t' b' rest := by
  cases hc with
  | @std f t b rest hb h6 h8 =>
    have hs := toBytes_shortest h (hb _)
    refine ⟨by simpa using hs.1, ?_⟩
    have hp : Plain f := by
      generalize hl : false = l
      have hb := hb l
      cases hb <;> first | trivial | omega | (exfalso; revert h8; split <;> split <;> split <;> decide)
    have hcon : Consistent f := by
      rcases hf with h | ⟨x, rfl, -, hx⟩
      · exact h
      · exact absurd hp hx
    obtain ⟨t', body, hw, ht, e⟩ := toBytes_wire hcon h
    exact ⟨t', body, ht, e, wire_codeBody hw hp rest⟩
  | @crypto x b1 b2 rest k1 k2 k3 =>
    obtain ⟨c1, h1, h⟩ := Out.bind_eq_ok h
    obtain ⟨c2, h2, h⟩ := Out.bind_eq_ok h
    cases h
    have l1 := (Shortest.enc h1 k1).1
    have l2 := (Shortest.enc h2 k2).1
    refine ⟨by simp only [List.length_append, List.length_cons, List.length_nil]; omega, 6, c1 ++ (c2 ++ x.cryptoData), by decide, by simp, ?_⟩
    exact .crypto (encodeVarInt_isVarInt h1) (encodeVarInt_isVarInt h2) k3
  | @stream id data t b1 t8 t15 k1 =>
    have h : FrameStream.toBytes _ false = .ok bs := h
    unfold FrameStream.toBytes at h
    dsimp only at h
    rw [streamType_eq] at h
    obtain ⟨c1, h1, h⟩ := Out.bind_eq_ok h
    obtain ⟨c2, h2, h⟩ := opt_bind h
    cases h2
    obtain ⟨c3, h3, h⟩ := opt_bind h
    cases h3
    cases h
    have l1 := (Shortest.enc h1 k1).1
    refine ⟨by simp only [List.length_append, List.length_cons, List.length_nil]; omega,
      8 + (if decide (t % 2 = 1) = true then 1 else 0), c1 ++ data, by split <;> decide, by simp, ?_⟩
    have := CodeBody.stream (id := id) (data := data) (t := 8 + (if decide (t % 2 = 1) = true then 1 else 0)) (b1 := c1) (by split <;> decide)
      (by split <;> decide) (encodeVarInt_isVarInt h1)
    have e : decide ((8 + (if decide (t % 2 = 1) = true then 1 else 0)) % 2 = 1) = decide (t % 2 = 1) := by
      by_cases ht : t % 2 = 1 <;> simp [ht]
    rw [e] at this
    exact this

/-- Only a STREAM frame cares for what follows, and nothing follows it. -/
theorem codeBody_rest {f : Frame} {t : Nat} {b : Bytes} {rest rest' : Stream} (h : CodeBody f t b rest) (hr : rest = [] → rest' = []) :
    CodeBody f t b rest' := by
  cases h with
  | std x y z => exact .std x y z
  | crypto x y z => exact .crypto x y z
  | stream x y z => rw [hr rfl]; exact .stream x y z

/-- C93. Whatever payload was parsed, its frames are written in at most as many bytes, and these are parsed as the same frames. -/
theorem C93_reencoding (s s' : Stream) (fs : List Frame) (hs : s.length < 2 ^ 62) (h : deserializeFrames s = (.ok fs, s')) :
    ∃ bs, serializeFrames fs true = .ok bs ∧ bs.length ≤ s.length ∧ deserializeFrames (makeResultStream bs) = (.ok fs, []) := by
  obtain ⟨bs, hbs⟩ := C19_reserializable s s' fs true hs h
  refine ⟨bs, hbs, ?_⟩
  obtain ⟨-, b, rfl, hc⟩ := frames_iff.mp h
  have hwf := codeFrames_wf hc (by simpa using hs)
  suffices hk : bs.length ≤ b.length ∧ CodeFrames fs bs from ⟨by simpa using hk.1, frames_complete hk.2⟩
  clear h hs
  induction hc generalizing bs with
  | nil => cases hbs; exact ⟨Nat.le_refl _, .nil⟩
  | @cons f fs tb b b2 t ht hcb hcs ih =>
    rw [serializeFrames_cons] at hbs
    obtain ⟨a, h1, hbs⟩ := Out.bind_eq_ok hbs
    obtain ⟨c, h2, hbs⟩ := Out.bind_eq_ok hbs
    cases hbs
    obtain ⟨l2, k2⟩ := ih c h2 fun f hf => hwf f (List.mem_cons_of_mem _ hf)
    have hcb' := codeBody_rest (rest' := makeResultStream c) hcb fun h => by
      have hb : b2.length = 0 := by simpa [makeResultStream] using congrArg List.length h
      exact List.length_eq_zero_iff.mp (by simp only [makeResultStream_length]; omega)
    have he : (makeResultStream c).isEmpty = (true && fs.isEmpty) := by
      cases k2 with
      | nil => rfl
      | cons hv _ _ =>
        have := hv.length_pos
        cases hq : (_ ++ (_ ++ _) : Bytes) with
        | nil => simp_all
        | cons => rfl
    rw [← he] at h1
    obtain ⟨l1, t', b', ht', rfl, hcb2⟩ := toBytes_reparses hcb' (hwf f List.mem_cons_self).2 h1
    have hp := ht.length_pos
    refine ⟨by simp only [List.length_append] at *; omega, ?_⟩
    have e : t' = (BitVec.ofNat 64 t').toNat := by rw [BitVec.toNat_ofNat, Nat.mod_eq_of_lt (by omega)]
    have e2 : t' % 256 = t' := Nat.mod_eq_of_lt (by omega)
    have := CodeFrames.cons (tb := [BitVec.ofNat 8 t']) (b := b') (bs := c) (f := f) (fs := fs) (t := BitVec.ofNat 64 t')
      (by rw [← e]; exact isVarInt_one t' ht') (by rw [← e, e2]; exact hcb2) k2
    simpa using this
/-- The payload has a long integer, a CRYPTO frame at an offset and a STREAM frame; two bytes are saved. -/
example : deserializeFrames (makeResultStream [0x40, 0x10, 0x40, 0x05, 0x06, 0x01, 0x00, 0x07, 0x0f, 0x04, 0x09]) =
    (.ok [.maxData ⟨5⟩, .crypto ⟨1, 0, [7]⟩, .stream ⟨4, 0, 1, [9], true⟩], [])
  ∧ serializeFrames [.maxData ⟨5⟩, .crypto ⟨1, 0, [7]⟩, .stream ⟨4, 0, 1, [9], true⟩] true =
    .ok [0x10, 0x05, 0x06, 0x01, 0x00, 0x07, 0x09, 0x04, 0x09] := by decide +kernel

end QuicSea
