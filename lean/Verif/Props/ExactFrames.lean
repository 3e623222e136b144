import Verif.Props.Exact
import Verif.Props.VarInt
/-
C05, C11, C12, C15 and C19 made exact: for which inputs the code does what the property says.
-/
namespace QuicSea
open Spec

/-! ## C05 -/

/-- Slice and stream decoding of the same bytes agree: both fail, or both succeed with the same value and the same number of bytes used. -/
def SliceAgrees (data : Bytes) : Prop :=
  (∃ v n, decodeVarInt data = .ok (v, n) ∧ varIntFromStream (makeResultStream data) = (.ok v, makeResultStream (data.drop n))) ∨
  ((decodeVarInt data).isErr = true ∧ (varIntFromStream (makeResultStream data)).1.isErr = true)

/-- The bytes start with a complete RFC 9000 integer, or the stream decoder fails. -/
theorem varInt_err_short (b : U8) (rest : Bytes) (h : rest.length + 1 < 2 ^ (b >>> 6).toNat) :
    (varIntFromStream (makeResultStream (b :: rest))).1.isErr = true := by
  rcases C04_varint_decode_conforms (makeResultStream (b :: rest)) with ⟨bs, v, s', hs, hv, _⟩ | ⟨_, h, _⟩
  · exfalso
    obtain ⟨b', r', rfl, hl'⟩ := hv.shape
    rw [makeResultStream_cons, makeResultStream_cons, List.cons_append] at hs
    injection hs with h1 h2
    injection h1 with h1
    subst h1
    have := congrArg List.length h2
    have := shift_len (b >>> 6).toNat
    simp only [makeResultStream_length, List.length_append] at *
    omega
  · exact h

/-- C05, exact: the two decoders agree on a slice exactly if it does not start with a byte of 0x80 or more followed by at least two (below 0xc0) or three
(from 0xc0) bytes; that is, the slices that hold a 4- or 8-byte integer and some that hold the start of one are those decoded wrongly. -/
theorem C05_exact (data : Bytes) : SliceAgrees data ↔ ∀ b rest, data = b :: rest → b.toNat < 0x80 ∨ rest.length < (b >>> 6).toNat := by
  constructor
  · rintro h b rest rfl
    obtain ⟨hb1, hb2, hb3⟩ := byte_split b
    refine Classical.byContradiction fun hn => ?_
    rw [not_or] at hn
    have hd : decodeVarInt (b :: rest) = .ok ((rest.take (b >>> 6).toNat).foldl varIntAcc ((b &&& 0x3f).setWidth 64), (b >>> 6).toNat + 1) := by
      unfold decodeVarInt
      simp only
      rw [if_neg (by simp only [List.length_cons]; omega)]
    rcases h with ⟨v, n, h1, h2⟩ | ⟨h1, -⟩
    · rw [hd] at h1
      injection h1 with h1
      have hn' : (b >>> 6).toNat + 1 = n := congrArg Prod.snd h1
      rcases C04_varint_decode_conforms (makeResultStream (b :: rest)) with ⟨bs, w, s', hs, hv, _, hr, _⟩ | ⟨_, hr, _⟩
      · rw [hr] at h2
        have h3 : s' = makeResultStream ((b :: rest).drop n) := congrArg Prod.snd h2
        obtain ⟨b', r', rfl, hl'⟩ := hv.shape
        have hlen := congrArg List.length hs
        have hl3 := congrArg List.length h3
        rw [makeResultStream_cons, makeResultStream_cons, List.cons_append] at hs
        injection hs with e1 _
        injection e1 with e1
        subst e1
        simp only [makeResultStream_length, List.length_append, List.length_cons, List.length_drop] at hlen hl3
        have hk : (b >>> 6).toNat = 2 ∨ (b >>> 6).toNat = 3 := by omega
        rcases hk with hk | hk <;> rw [hk] at hl' hn' <;> simp at hl' <;> omega
      · rw [h2] at hr; cases hr
    · rw [hd] at h1; cases h1
  · intro h
    cases data with
    | nil => exact .inr ⟨rfl, rfl⟩
    | cons b rest =>
      rcases h b rest rfl with hb | hl
      · exact C05_slice_decode_agrees_partial b rest hb
      · have hk : (b >>> 6).toNat + 1 ≤ 2 ^ (b >>> 6).toNat := Nat.lt_two_pow_self
        refine .inr ⟨?_, varInt_err_short b rest (by omega)⟩
        unfold decodeVarInt
        simp only
        rw [if_pos (by simp only [List.length_cons]; omega)]
        rfl
example : SliceAgrees [0x7b, 0xbd, 9] := (C05_exact _).mpr (by rintro b rest h; cases h; left; decide)
example : ¬ SliceAgrees [0x9d, 0x7f, 0x3e, 0x7d] := fun h => by
  have := (C05_exact _).mp h 0x9d [0x7f, 0x3e, 0x7d] rfl
  revert this
  decide +kernel

/-! ## C11 -/

/-- C11, exact, for whole lists of frames and both ways of writing them: what is given back is the lists of plain frames and, if the last frame is written as
the end of the datagram, those that end in a STREAM frame at offset 0; no others. -/
theorem C11_exact (fs : List Frame) (hw : ∀ f ∈ fs, WellFormed f) (e : Bool) (bs : Bytes) (h : serializeFrames fs e = .ok bs) :
    (deserializeFrames (makeResultStream bs)).1 = .ok fs ↔
      (∀ f ∈ fs, Plain f) ∨ (e = true ∧ ∃ gs x, fs = gs ++ [.stream x] ∧ (∀ g ∈ gs, Plain g) ∧ x.offset = 0) := by
  constructor
  · intro hd
    induction fs generalizing bs with
    | nil => left; intro f hf; cases hf
    | cons f fs ih =>
      by_cases hnil : fs = []
      · subst hnil
        cases f with
        | stream x =>
          right
          have hs1 : (deserializeFrames (makeResultStream bs)) = (.ok [.stream x], []) := by
            rcases hx : deserializeFrames (makeResultStream bs) with ⟨o, s'⟩
            rw [hx] at hd
            simp only at hd
            subst hd
            rw [(C14_payload_consumed _ _ _ hx).1]
          have ho : x.offset = 0 := Classical.byContradiction fun ho => C11_offset_lost x ho e bs h hs1
          refine ⟨?_, [], x, rfl, nofun, ho⟩
          cases e with
          | true => rfl
          | false =>
            have := (C10_exact [.stream x] hw bs h).mp hd (.stream x) List.mem_cons_self
            exact this.elim
        | crypto x =>
          have e0 : serializeFrames [.crypto x] false = serializeFrames [.crypto x] e := by cases e <;> rfl
          exact .inl ((C10_exact _ hw bs (e0.trans h)).mp hd)
        | _ => left; intro g hg; rcases List.mem_cons.mp hg with rfl | hg; trivial; cases hg
      · have hem : fs.isEmpty = false := by cases fs <;> simp_all
        simp only [serializeFrames, hem, Bool.and_false] at h
        cases ha : f.toBytes false with
        | err e => rw [ha] at h; cases h
        | panic e => rw [ha] at h; cases h
        | ok a =>
          rw [ha, Out.ok_bind] at h
          cases hb : serializeFrames fs e with
          | err e => rw [hb] at h; cases h
          | panic e => rw [hb] at h; cases h
          | ok b =>
            rw [hb, Out.ok_bind] at h
            cases h
            obtain ⟨hpl, hd'⟩ := given_back (hw f List.mem_cons_self) ha hd
            rcases ih (fun f hf => hw f (List.mem_cons_of_mem _ hf)) b hb hd' with hp | ⟨he, gs, x, rfl, hp, h0⟩
            · left
              intro g hg
              rcases List.mem_cons.mp hg with rfl | hg
              · exact hpl
              · exact hp g hg
            · refine .inr ⟨he, f :: gs, x, rfl, ?_, h0⟩
              intro g hg
              rcases List.mem_cons.mp hg with rfl | hg
              · exact hpl
              · exact hp g hg
  · rintro (hp | ⟨rfl, gs, x, rfl, hp, h0⟩)
    · obtain ⟨bs', h1, h2⟩ := C10_frames_round_trip fs e hw hp
      rw [h] at h1
      cases h1
      rw [h2]
    · obtain ⟨bs', h1, h2⟩ := C11_last_stream_round_trip_partial gs x (fun f hf => hw f (List.mem_append_left _ hf)) hp
        (hw _ (by simp)) h0
      rw [h] at h1
      cases h1
      rw [h2]

/-- A list on each side: STREAM at offset 0 at the end, and the same frame with another behind it. -/
example : (deserializeFrames (makeResultStream [0x01, 0x08, 4, 7, 8])).1 = .ok [.ping, .stream ⟨4, 0, 2, [7, 8], false⟩] ∧
    serializeFrames [.ping, .stream ⟨4, 0, 2, [7, 8], false⟩] true = .ok [0x01, 0x08, 4, 7, 8] := by decide +kernel
example (bs : Bytes) (h : serializeFrames [.stream ⟨4, 0, 2, [7, 8], false⟩, .ping] true = .ok bs) :
    (deserializeFrames (makeResultStream bs)).1 ≠ .ok [.stream ⟨4, 0, 2, [7, 8], false⟩, .ping] := fun hd => by
  rcases (C11_exact _ (by decide +kernel) true bs h).mp hd with hp | ⟨-, gs, x, e, -⟩
  · exact hp (.stream ⟨4, 0, 2, [7, 8], false⟩) List.mem_cons_self
  · have := congrArg List.getLast? e
    simp at this

/-! ## C12 -/

/-- C12, exact: of the RFC 9000 encodings of CRYPTO frames, those at offset 0 are read as what they are, and no others, whatever follows. -/
theorem C12_exact (offset length : U64) (b1 b2 data rest : Bytes) (h1 : IsVarInt b1 offset.toNat) (h2 : IsVarInt b2 length.toNat)
    (hd : data.length = length.toNat) : deserializeFrame (makeResultStream ([0x06] ++ b1 ++ b2 ++ data ++ rest)) =
      (.ok (.crypto ⟨offset, length, data⟩), makeResultStream rest) ↔ offset = 0 := by
  constructor
  · intro h
    obtain ⟨g1, g2⟩ := C12_crypto_takes_offset_too offset length b1 b2 (data ++ rest) h1 h2
    rw [← List.append_assoc] at g1 g2
    by_cases hl : offset.toNat + length.toNat ≤ (data ++ rest).length
    · rw [g1 hl] at h
      injection h with _ h
      have := congrArg List.length h
      rw [makeResultStream_length, makeResultStream_length, List.length_drop] at this
      rw [List.length_append] at this hl
      exact BitVec.eq_of_toNat_eq (by show _ = 0; omega)
    · have := g2 (by omega)
      rw [h] at this
      cases this
  · rintro rfl
    exact C12_crypto_length_partial length b1 b2 data rest h1 h2 hd

/-! ## C15 -/

/-- Forty bytes of 1 can follow every type: 1 is a length, a count, an id length and a value. -/
theorem ones_follow (t : Fin 31) : (deserializeFrame (makeResultStream (BitVec.ofNat 8 t :: List.replicate 40 1))).1.isOk = true := by
  revert t; decide +kernel

/-- C15, exact: the types that are rejected whatever follows are those whose value modulo 256 is above 0x1e; every other type, however large, is accepted
with some contents. -/
theorem C15_exact (tb : Bytes) (t : Nat) (h : IsVarInt tb t) :
    (∀ s, (deserializeFrame (makeResultStream tb ++ s)).1.isErr = true) ↔ 0x1e < t % 256 := by
  constructor
  · intro hs
    refine Classical.byContradiction fun hn => ?_
    have h1 := hs (makeResultStream (List.replicate 40 1))
    rw [C15_types_alias tb [BitVec.ofNat 8 (t % 256)] t _ h (isVarInt_one _ (by omega))] at h1
    have h2 := ones_follow ⟨t % 256, by omega⟩
    rw [makeResultStream_cons] at h2
    rw [show makeResultStream [BitVec.ofNat 8 (t % 256)] = [Except.ok (BitVec.ofNat 8 (t % 256))] from rfl, List.singleton_append] at h1
    generalize deserializeFrame _ = r at h1 h2
    rcases r with ⟨o, _⟩
    cases o with
    | ok _ => cases h1
    | err _ => cases h2
    | panic _ => cases h2
  · intro ht s
    rw [C15_unknown_rejected_partial tb t s h ht]
    rfl
example : IsVarInt [0x7f, 0xff] 0x3fff ∧ 0x1e < 0x3fff % 256 := ⟨⟨1, by decide +kernel⟩, by decide⟩
example : IsVarInt [0x41, 0x06] 0x106 ∧ ¬ 0x1e < 0x106 % 256 := ⟨⟨1, by decide +kernel⟩, by decide⟩

/-! ## C19 -/

/-- A CRYPTO frame from the parser has as many bytes of data as its Length and its offset together. -/
theorem codeFrames_crypto_len {fs : List Frame} {b : Bytes} (h : CodeFrames fs b) (x : FrameCrypto) (hx : Frame.crypto x ∈ fs) :
    x.cryptoData.length = x.length.toNat + x.offset.toNat := by
  induction h with
  | nil => cases hx
  | @cons f fs tb b bs t ht hcb _ ih =>
    rcases List.mem_cons.mp hx with rfl | hx
    · generalize t.toNat % 256 = u at hcb
      generalize makeResultStream bs = q at hcb
      generalize hg : Frame.crypto x = g at hcb
      cases hcb with
      | std h h6 _ =>
        subst hg
        have := h true
        cases this
        exact absurd rfl h6
      | crypto _ _ h3 => cases hg; exact h3
      | stream _ _ _ => cases hg
    · exact ih hx

/-- C19, exact: of the frames that come out of the parser those not well formed are the CRYPTO frames at an offset other than 0. -/
theorem C19_exact (s s' : Stream) (fs : List Frame) (hs : s.length < 2 ^ 62) (h : deserializeFrames s = (.ok fs, s')) (f : Frame) (hf : f ∈ fs) :
    WellFormed f ↔ ¬ ∃ x, f = .crypto x ∧ x.offset ≠ 0 := by
  obtain ⟨_, b, hb, hc⟩ := frames_iff.mp h
  have hl : b.length < 2 ^ 62 := by rw [hb, makeResultStream_length] at hs; exact hs
  obtain ⟨h1, h2⟩ := codeFrames_wf hc hl f hf
  constructor
  · rintro hw ⟨x, rfl, ho⟩
    have h3 := codeFrames_crypto_len hc x hf
    have h4 : x.length.toNat = x.cryptoData.length := hw.2
    exact ho (BitVec.eq_of_toNat_eq (by show _ = 0; omega))
  · intro hn
    refine ⟨h1, ?_⟩
    rcases h2 with h2 | ⟨x, hx, _, ho⟩
    · exact h2
    · exact absurd ⟨x, hx, ho⟩ hn
example : ∃ f ∈ [Frame.ping, .crypto ⟨1, 1, [7, 8]⟩], ¬ WellFormed f :=
  ⟨_, List.mem_cons_of_mem _ List.mem_cons_self,
    fun hw => (C19_exact (makeResultStream [1, 6, 1, 1, 7, 8]) [] [.ping, .crypto ⟨1, 1, [7, 8]⟩] (by decide) (by decide +kernel) _
      (List.mem_cons_of_mem _ List.mem_cons_self)).mp hw ⟨_, rfl, by decide⟩⟩

end QuicSea
