import Verif.Proofs.VarInt
/-
Properties C01-C05: variable-length integers.
-/
namespace QuicSea
open Spec (beNat IsVarInt)

/-- C01. Encoding then decoding is the identity and leaves exactly what follows, whatever follows. -/
theorem C01_varint_round_trip (x : U64) (hx : x.toNat < 2 ^ 62) (s : Stream) :
    ∃ bs, encodeVarInt x = .ok bs ∧ varIntFromStream (makeResultStream bs ++ s) = (.ok x, s)
      ∧ varIntWithBytesFromStream (makeResultStream bs ++ s) = (.ok (x, bs), s) := by
  obtain ⟨bs, h⟩ := encodeVarInt_ok x hx
  exact ⟨bs, h, varInt_reads (encodeVarInt_isVarInt h) s, varIntWithBytes_reads (encodeVarInt_isVarInt h) s⟩

/-- The hypothesis is met, e.g. by an 8-byte value followed by a stream that later fails. -/
example : ∃ bs, encodeVarInt 151288809941952652 = .ok bs ∧
    varIntFromStream (makeResultStream bs ++ [.ok 7, .error .noError]) = (.ok 151288809941952652, [.ok 7, .error .noError]) :=
  let ⟨bs, h1, h2, _⟩ := C01_varint_round_trip 151288809941952652 (by decide) [.ok 7, .error .noError]
  ⟨bs, h1, h2⟩

/-- C02. Encoding succeeds exactly below 2^62, otherwise it is an error, and never a panic. -/
theorem C02_varint_encode_total (x : U64) :
    ((encodeVarInt x).isOk = true ↔ x.toNat < Spec.varIntLimit) ∧
    ((encodeVarInt x).isErr = true ↔ Spec.varIntLimit ≤ x.toNat) ∧ (encodeVarInt x).isPanic = false := by
  unfold Spec.varIntLimit
  by_cases hx : x.toNat < 2 ^ 62
  · obtain ⟨bs, h⟩ := encodeVarInt_ok x hx
    rw [h]
    refine ⟨by simpa using hx, ?_, rfl⟩
    simp only [Out.isErr_ok]
    constructor
    · intro h; cases h
    · intro h; omega
  · rw [encodeVarInt_overflow x (by omega)]
    refine ⟨?_, ?_, rfl⟩
    · simp only [Out.isOk_err]
      constructor
      · intro h; cases h
      · intro h; omega
    · simp only [Out.isErr_err, true_iff]; omega

/-- C03. The encoding is a valid RFC 9000 encoding and no valid encoding of the same value is shorter. -/
theorem C03_varint_encode_minimal (x : U64) (bs : Bytes) (h : encodeVarInt x = .ok bs) :
    IsVarInt bs x.toNat ∧ ∀ bs', IsVarInt bs' x.toNat → bs.length ≤ bs'.length := by
  refine ⟨encodeVarInt_isVarInt h, ?_⟩
  intro bs' h'
  obtain ⟨b, k, e, hk, hl, hlt, hbe, hmin⟩ := encodeVarInt_spec x (encodeVarInt_isVarInt h).lt
  rw [h] at e
  cases e
  obtain ⟨j, hj, hl', hlt', _⟩ := h'
  rw [hl, hl']
  refine Nat.pow_le_pow_right (by decide) (Nat.not_lt.mp fun hjk => ?_)
  have := hmin j hjk
  omega

/-- Non-trivial case: 37 also has a two-byte encoding, the encoder picks the one-byte one. -/
example : encodeVarInt 37 = .ok [0x25] ∧ IsVarInt [0x40, 0x25] 37 := ⟨by decide +kernel, 1, by decide +kernel⟩

/-- C04. On every stream (also one yielding errors): if it starts with a complete RFC 9000 integer, its value is returned, exactly
its bytes are consumed and (second reader) returned; otherwise the outcome is an error. There is no other case, in particular no panic. -/
theorem C04_varint_decode_conforms (s : Stream) :
    (∃ bs v s', s = makeResultStream bs ++ s' ∧ IsVarInt bs v ∧ v < 2 ^ 62 ∧
      varIntFromStream s = (.ok (BitVec.ofNat 64 v), s') ∧
      varIntWithBytesFromStream s = (.ok (BitVec.ofNat 64 v, bs), s'))
    ∨ ((¬ ∃ bs v s', s = makeResultStream bs ++ s' ∧ IsVarInt bs v) ∧
      (varIntFromStream s).1.isErr = true ∧ (varIntWithBytesFromStream s).1.isErr = true) := by
  by_cases hs : ∃ bs v s', s = makeResultStream bs ++ s' ∧ IsVarInt bs v
  · left
    obtain ⟨bs, v, s', rfl, h⟩ := hs
    have hlt := h.lt
    have hv : (BitVec.ofNat 64 v).toNat = v := by
      rw [BitVec.toNat_ofNat]; exact Nat.mod_eq_of_lt (Nat.lt_trans hlt (by decide))
    have h' : IsVarInt bs (BitVec.ofNat 64 v).toNat := by rw [hv]; exact h
    exact ⟨bs, v, s', rfl, h, hlt, varInt_reads h' s', varIntWithBytes_reads h' s'⟩
  · right
    refine ⟨hs, ?_, ?_⟩
    · have hp := varInt_noPanic s
      rcases hr : varIntFromStream s with ⟨o, s'⟩
      rw [hr] at hp
      cases o with
      | ok v =>
        obtain ⟨bs, e, h⟩ := varInt_sound _ _ _ hr
        exact absurd ⟨bs, _, s', e, h⟩ hs
      | err e => rfl
      | panic w => simp at hp
    · have hp := varIntWithBytes_noPanic s
      rcases hr : varIntWithBytesFromStream s with ⟨o, s'⟩
      rw [hr] at hp
      cases o with
      | ok v =>
        obtain ⟨bs, e, _, h⟩ := varIntWithBytes_sound _ _ _ hr
        exact absurd ⟨bs, _, s', e, h⟩ hs
      | err e => rfl
      | panic w => simp at hp

/-- Both cases of C04 occur. -/
example : varIntFromStream (makeResultStream [0x7b, 0xbd, 0x01]) = (.ok 15293, [.ok 0x01]) := by decide +kernel
example : (varIntFromStream (makeResultStream [0x80, 0x01])).1.isErr = true := by decide +kernel

/-- C05, full statement: decoding from a slice agrees with decoding the same bytes as a stream. -/
def C05_statement : Prop :=
  ∀ (data : Bytes) (v : U64) (n : Nat), decodeVarInt data = .ok (v, n) →
    varIntFromStream (makeResultStream data) = (.ok v, makeResultStream (data.drop n))

/-- C05 is false of the code: for every complete 4- or 8-byte integer, slice decoding reports a length of 3 or 4 bytes where the stream
decoder consumes 4 or 8. -/
theorem C05_slice_decode_disagrees (b : U8) (rest : Bytes) (hb : 2 ≤ (b >>> 6).toNat) (hr : 7 ≤ rest.length) :
    ∃ v n v' , decodeVarInt (b :: rest) = .ok (v, n) ∧ n = (b >>> 6).toNat + 1 ∧
      varIntFromStream (makeResultStream (b :: rest)) = (.ok v', makeResultStream ((b :: rest).drop (2 ^ (b >>> 6).toNat))) ∧
      n < 2 ^ (b >>> 6).toNat := by
  obtain ⟨_, h3, _⟩ := byte_split b
  have hk : (1 <<< (b >>> 6).toNat) - 1 ≤ 7 := by
    generalize (b >>> 6).toNat = k at *
    match k, h3 with
    | 0, _ | 1, _ | 2, _ | 3, _ => decide
  have hlen := shift_len (b >>> 6).toNat
  have ht : (rest.take ((1 <<< (b >>> 6).toNat) - 1)).length = (1 <<< (b >>> 6).toNat) - 1 := by
    rw [List.length_take]; omega
  have hread := varInt_reads (varInt_value b _ ht) (makeResultStream (rest.drop ((1 <<< (b >>> 6).toNat) - 1)))
  rw [← makeResultStream_append, List.cons_append, List.take_append_drop] at hread
  refine ⟨(rest.take (b >>> 6).toNat).foldl varIntAcc ((b &&& 0x3f).setWidth 64), (b >>> 6).toNat + 1,
    (rest.take ((1 <<< (b >>> 6).toNat) - 1)).foldl varIntAcc ((b &&& 0x3f).setWidth 64), ?_, rfl, ?_, ?_⟩
  · unfold decodeVarInt
    simp only
    rw [if_neg (by simp only [List.length_cons]; omega)]
  · rw [hread, ← hlen, List.drop_succ_cons]
  · generalize (b >>> 6).toNat = k at *
    match k, h3, hb with
    | 2, _, _ | 3, _, _ => decide

theorem C05_false : ¬ C05_statement := by
  intro h
  have := h [0x80, 0, 0, 1] 0 3 (by decide +kernel)
  revert this
  decide +kernel

/-- C05, what does hold: for 1- and 2-byte integers (first byte below 0x80) slice and stream decoding agree, in success, value, length and failure.
Missing: the 4- and 8-byte forms, where the code is wrong (`C05_slice_decode_disagrees`). -/
theorem C05_slice_decode_agrees_partial (b : U8) (rest : Bytes) (hb : b.toNat < 0x80) :
    (∃ v n, decodeVarInt (b :: rest) = .ok (v, n) ∧
      varIntFromStream (makeResultStream (b :: rest)) = (.ok v, makeResultStream ((b :: rest).drop n))) ∨
    ((decodeVarInt (b :: rest)).isErr = true ∧ (varIntFromStream (makeResultStream (b :: rest))).1.isErr = true) := by
  obtain ⟨h1, _, h3⟩ := byte_split b
  have hk : (b >>> 6).toNat = 0 ∨ (b >>> 6).toNat = 1 := by omega
  have e : (1 <<< (b >>> 6).toNat) - 1 = (b >>> 6).toNat := by rcases hk with h | h <;> rw [h] <;> rfl
  by_cases hl : (b >>> 6).toNat ≤ rest.length
  · left
    have ht : (rest.take (b >>> 6).toNat).length = (1 <<< (b >>> 6).toNat) - 1 := by
      rw [List.length_take, e]; omega
    have hread := varInt_reads (varInt_value b _ ht) (makeResultStream (rest.drop (b >>> 6).toNat))
    rw [← makeResultStream_append, List.cons_append, List.take_append_drop] at hread
    refine ⟨(rest.take (b >>> 6).toNat).foldl varIntAcc ((b &&& 0x3f).setWidth 64), (b >>> 6).toNat + 1, ?_, ?_⟩
    · unfold decodeVarInt
      simp only
      rw [if_neg (by simp only [List.length_cons]; omega)]
    · rw [hread, List.drop_succ_cons]
  · right
    constructor
    · unfold decodeVarInt
      simp only
      rw [if_pos (by simp only [List.length_cons]; omega)]
      rfl
    · rcases C04_varint_decode_conforms (makeResultStream (b :: rest)) with ⟨bs, v, s', hs, hv, _⟩ | ⟨_, h, _⟩
      · exfalso
        obtain ⟨b', r', rfl, hl'⟩ := hv.shape
        rw [makeResultStream_cons, makeResultStream_cons, List.cons_append] at hs
        injection hs with h1 h2
        injection h1 with h1
        subst h1
        have := congrArg List.length h2
        simp only [makeResultStream_length, List.length_append] at this
        omega
      · exact h
example : (0x7b : U8).toNat < 0x80 ∧ decodeVarInt [0x7b, 0xbd] = .ok (15293, 2) := by decide +kernel

end QuicSea
