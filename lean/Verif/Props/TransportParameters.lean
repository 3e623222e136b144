import Verif.Spec.TransportParameters
import Verif.Proofs.Decode
/-
C40 transport parameter encoding, C41 preferred address, C42 error codes.
-/
namespace QuicSea
open Spec TransportParameter

/-! ## C40 -/

private theorem serialize_inv {p : TransportParameter} {bs} (h : p.serialize = .ok bs) :
    ∃ idb lb v, encodeVarInt p.identifierVal = .ok idb ∧ p.valueBytes = .ok v
      ∧ encodeVarInt (BitVec.ofNat 64 v.length) = .ok lb ∧ bs = idb ++ lb ++ v := by
  unfold serialize at h
  obtain ⟨idb, h1, h⟩ := Out.bind_eq_ok h
  obtain ⟨v, h2, h⟩ := Out.bind_eq_ok h
  obtain ⟨lb, h3, h⟩ := Out.bind_eq_ok h
  cases h
  exact ⟨idb, lb, v, h1, h2, h3, rfl⟩

private theorem valueBytes_int {p : TransportParameter} {n} (h : paramInt p = some n) :
    ∃ x : U64, p.valueBytes = encodeVarInt x ∧ x.toNat = n := by
  cases p <;> simp [paramInt] at h <;> exact ⟨_, rfl, h⟩

private theorem preferred_length (x : PreferredAddress) : x.toBytes.length = 24 + x.connectionId.length := by
  simp [PreferredAddress.toBytes]; omega

private theorem valueBytes_len {p : TransportParameter} {v} (h : p.valueBytes = .ok v) :
    v.length ≤ paramBytesLen p + 24 := by
  cases hp : paramInt p with
  | some n =>
    obtain ⟨x, hx, -⟩ := valueBytes_int hp
    rw [hx] at h
    have := (isVarInt_len (encodeVarInt_isVarInt h))
    omega
  | none =>
    cases p <;> simp [paramInt] at hp <;> cases h <;> simp [paramBytesLen, preferred_length]
    omega

private theorem ofNat_len {n : Nat} (h : n < 2 ^ 64) : (BitVec.ofNat 64 n).toNat = n := by
  rw [BitVec.toNat_ofNat, Nat.mod_eq_of_lt h]

private theorem value_small {p : TransportParameter} {v} (hm : InMemory p) (h : p.valueBytes = .ok v) : v.length < 2 ^ 64 := by
  have := valueBytes_len h
  have hm : paramBytesLen p < 2 ^ 63 := hm
  omega

private theorem wire_value {p : TransportParameter} {v} (h : p.valueBytes = .ok v) : ParamWire p p.identifierVal.toNat v := by
  cases p <;>
    first
    | exact ⟨rfl, encodeVarInt_isVarInt h⟩
    | (cases h; exact ⟨rfl, rfl⟩)
    | (cases h; exact ⟨rfl, by simp, beNat_toBeBytes' 16 _⟩)
    | skip
  case preferredAddress x =>
    cases h
    exact ⟨rfl, toBeBytes 4 x.ipv4Address, toBeBytes 2 x.ipv4Port, toBeBytes 16 x.ipv6Address, toBeBytes 2 x.ipv6Port,
      x.connectionId, rfl, by simp, beNat_toBeBytes' 4 _, by simp, beNat_toBeBytes' 2 _, by simp, beNat_toBeBytes' 16 _,
      by simp, beNat_toBeBytes' 2 _⟩

/-- C40: what `serialize` returns is the RFC 9000 id, length and value of the parameter. -/
theorem C40_format (p : TransportParameter) (hm : InMemory p) {bs} (h : p.serialize = .ok bs) : ParamTLV p bs := by
  obtain ⟨idb, lb, v, h1, h2, h3, rfl⟩ := serialize_inv h
  have hl := encodeVarInt_isVarInt h3
  rw [ofNat_len (value_small hm h2)] at hl
  exact ⟨_, idb, lb, v, encodeVarInt_isVarInt h1, hl, rfl, wire_value h2⟩

/-- C40: `serialize` succeeds exactly when the integer the parameter carries and the length of its value fit in the RFC
9000 integer encoding; otherwise it returns an error. -/
theorem C40_fails_exactly (p : TransportParameter) (hm : InMemory p) :
    ((∃ bs, p.serialize = .ok bs) ↔ (∀ n, paramInt p = some n → n < 2 ^ 62) ∧ paramRawLen p < 2 ^ 62)
    ∧ p.serialize.isPanic = false := by
  have hid : ∃ idb, encodeVarInt p.identifierVal = .ok idb := encodeVarInt_ok _ (by cases p <;> simp [identifierVal])
  obtain ⟨idb, hid⟩ := hid
  have hv : ∀ v, p.valueBytes = .ok v → p.serialize = (encodeVarInt (BitVec.ofNat 64 v.length) >>= fun lb =>
      Out.ok (idb ++ lb ++ v)) := by
    intro v hv
    unfold serialize
    rw [hid, Out.ok_bind, hv, Out.ok_bind]
    rfl
  cases hp : paramInt p with
  | some n =>
    obtain ⟨x, hx, hn⟩ := valueBytes_int hp
    have hb : paramRawLen p = 0 := by
      cases p <;> simp [paramInt] at hp <;> rfl
    rw [hb]
    by_cases hlt : x.toNat < 2 ^ 62
    · obtain ⟨v, hv'⟩ := encodeVarInt_ok x hlt
      have hl := isVarInt_len (encodeVarInt_isVarInt hv')
      obtain ⟨lb, hlb⟩ := encodeVarInt_ok (BitVec.ofNat 64 v.length) (by rw [ofNat_len (by omega)]; omega)
      have e := hv v (hx.trans hv')
      rw [hlb] at e
      refine ⟨⟨fun _ => ⟨?_, by decide⟩, fun _ => ⟨_, e⟩⟩, by rw [e]; rfl⟩
      intro m hm'; cases hm'; omega
    · have e : p.serialize = .err (.internalError "var int overflow") := by
        unfold serialize
        rw [hid, Out.ok_bind, hx, encodeVarInt_overflow x (by omega)]
        rfl
      refine ⟨⟨?_, ?_⟩, by rw [e]; rfl⟩
      · rintro ⟨bs, h⟩; rw [e] at h; cases h
      · rintro ⟨h, -⟩; exact absurd (h n rfl) (by omega)
  | none =>
    have hval : ∃ v, p.valueBytes = .ok v ∧ v.length = paramRawLen p := by
      cases p <;> simp [paramInt] at hp <;> refine ⟨_, rfl, ?_⟩ <;> simp [paramRawLen, preferred_length]
    obtain ⟨v, hv', hl⟩ := hval
    have e := hv v hv'
    have hsm := value_small hm hv'
    rw [← hl]
    refine ⟨?_, ?_⟩
    · constructor
      · rintro ⟨bs, h⟩
        refine ⟨(fun n h => by cases h), ?_⟩
        rw [e] at h
        obtain ⟨lb, h3, -⟩ := Out.bind_eq_ok h
        have := (encodeVarInt_isVarInt h3).lt
        rw [ofNat_len hsm] at this
        exact this
      · rintro ⟨-, h⟩
        obtain ⟨lb, hlb⟩ := encodeVarInt_ok (BitVec.ofNat 64 v.length) (by rw [ofNat_len hsm]; exact h)
        rw [e, hlb]
        exact ⟨_, rfl⟩
    · rw [e]
      exact Out.bind_noPanic (encodeVarInt_noPanic _) (fun _ => rfl)

private theorem encode_inj {x y : U64} {b} (h1 : encodeVarInt x = .ok b) (h2 : encodeVarInt y = .ok b) : x = y :=
  BitVec.eq_of_toNat_eq ((encodeVarInt_isVarInt h1).unique (encodeVarInt_isVarInt h2))

private theorem toBe_inj {n} {x y : BitVec (8 * n)} (h : toBeBytes n x = toBeBytes n y) : x = y :=
  BitVec.eq_of_toNat_eq (by rw [← beNat_toBeBytes', ← beNat_toBeBytes', h])

private theorem preferred_inj {x y : PreferredAddress} (h : x.toBytes = y.toBytes) : x = y := by
  cases x; cases y
  simp only [PreferredAddress.toBytes, List.append_assoc] at h
  obtain ⟨h1, h⟩ := List.append_inj h (by simp)
  obtain ⟨h2, h⟩ := List.append_inj h (by simp)
  obtain ⟨h3, h⟩ := List.append_inj h (by simp)
  obtain ⟨h4, h⟩ := List.append_inj h (by simp)
  cases toBe_inj (n := 4) h1; cases toBe_inj (n := 2) h2; cases toBe_inj (n := 16) h3; cases toBe_inj (n := 2) h4; cases h
  rfl

private theorem param_inj {p q : TransportParameter} {v} (hid : p.identifierVal = q.identifierVal)
    (h1 : p.valueBytes = .ok v) (h2 : q.valueBytes = .ok v) : p = q := by
  cases p <;> cases q <;> first
    | (exfalso; simp [identifierVal] at hid; done)
    | skip
  case disableActiveMigration.disableActiveMigration => rfl
  case statelessResetToken.statelessResetToken =>
    injection h1 with h1; injection h2 with h2
    rw [toBe_inj (n := 16) (h1.trans h2.symm)]
  case preferredAddress.preferredAddress =>
    injection h1 with h1; injection h2 with h2
    rw [preferred_inj (h1.trans h2.symm)]
  case originalDestinationConnectionId.originalDestinationConnectionId => cases h1; cases h2; rfl
  case initialSourceConnectionId.initialSourceConnectionId => cases h1; cases h2; rfl
  case retrySourceConnectionId.retrySourceConnectionId => cases h1; cases h2; rfl
  all_goals rw [encode_inj h1 h2]

/-- An RFC 9000 integer is a prefix code. -/
private theorem varInt_split {a b : Bytes} {m n : Nat} {x y : Bytes} (ha : IsVarInt a m) (hb : IsVarInt b n)
    (h : a ++ x = b ++ y) : a = b ∧ m = n ∧ x = y := by
  have hm := ha.lt
  have hn := hb.lt
  have ra := varInt_reads (v := BitVec.ofNat 64 m) (by rw [ofNat_len (by omega)]; exact ha)
  have rb := varInt_reads (v := BitVec.ofNat 64 n) (by rw [ofNat_len (by omega)]; exact hb)
  have e1 := ra (makeResultStream x)
  have e2 := rb (makeResultStream y)
  rw [← makeResultStream_append, h, makeResultStream_append, e2] at e1
  have hv : n = m := by
    have := congrArg (fun p => p.1) e1
    simp only [Out.ok.injEq] at this
    have := congrArg BitVec.toNat this
    rwa [ofNat_len (by omega), ofNat_len (by omega)] at this
  have hxy : y = x := makeResultStream_inj (congrArg (fun p => p.2) e1)
  subst hv hxy
  exact ⟨List.append_cancel_right h, rfl, rfl⟩

/-- C40: the RFC 9000 section 18 format is uniquely decodable: a byte string splits in at most one way into ids and
values. -/
theorem C40_unique_split {l l' : List (Nat × Bytes)} {bs} (h : TLVs l bs) (h' : TLVs l' bs) : l = l' := by
  induction h generalizing l' with
  | nil =>
    generalize hb : ([] : Bytes) = bs at h'
    cases h' with
    | nil => rfl
    | cons hi _ _ =>
      obtain ⟨b, rest, rfl, -⟩ := hi.shape
      cases hb
  | cons hi hl ht ih =>
    rename_i id v idb lb l bs
    generalize hb : idb ++ lb ++ v ++ bs = bs' at h'
    cases h' with
    | nil =>
      obtain ⟨b, rest, rfl, -⟩ := hi.shape
      cases hb
    | cons hi' hl' ht' =>
      rename_i id' v' idb' lb' l' bs'
      simp only [List.append_assoc] at hb
      obtain ⟨-, rfl, hb⟩ := varInt_split hi hi' hb
      obtain ⟨-, hlen, hb⟩ := varInt_split hl hl' hb
      obtain ⟨rfl, rfl⟩ := List.append_inj hb hlen
      rw [ih ht']

/-- Serialization of a parameter list, in order: what a caller of `serialize` sends. -/
def serializeAll : List TransportParameter → Out Bytes
  | [] => .ok []
  | p :: ps => do
    let b ← p.serialize
    let bs ← serializeAll ps
    pure (b ++ bs)

private theorem serializeAll_tlvs {ps : List TransportParameter} (hm : ∀ p ∈ ps, InMemory p) {bs}
    (h : serializeAll ps = .ok bs) :
    ∃ l : List (Nat × Bytes), TLVs l bs
      ∧ ps.map (fun p => (p.identifierVal.toNat, p.valueBytes)) = l.map fun e => (e.1, Out.ok e.2) := by
  induction ps generalizing bs with
  | nil => cases h; exact ⟨[], .nil, rfl⟩
  | cons p ps ih =>
    obtain ⟨b, h1, h⟩ := Out.bind_eq_ok h
    obtain ⟨bs', h2, h⟩ := Out.bind_eq_ok h
    cases h
    obtain ⟨l, hl, hf⟩ := ih (fun p hp => hm p (List.mem_cons_of_mem _ hp)) h2
    obtain ⟨idb, lb, v, e1, e2, e3, rfl⟩ := serialize_inv h1
    have hlb := encodeVarInt_isVarInt e3
    rw [ofNat_len (value_small (hm p List.mem_cons_self) e2)] at hlb
    exact ⟨(p.identifierVal.toNat, v) :: l, .cons (encodeVarInt_isVarInt e1) hlb hl, by
      rw [List.map_cons, List.map_cons, hf, e2]⟩

private theorem params_inj {ps qs : List TransportParameter} {l : List (Nat × Bytes)}
    (h : ps.map (fun p => (p.identifierVal.toNat, p.valueBytes)) = l.map fun e => (e.1, Out.ok e.2))
    (h' : qs.map (fun p => (p.identifierVal.toNat, p.valueBytes)) = l.map fun e => (e.1, Out.ok e.2)) : ps = qs := by
  induction ps generalizing qs l with
  | nil =>
    cases l with
    | nil => cases qs with
      | nil => rfl
      | cons => cases h'
    | cons => cases h
  | cons p ps ih =>
    cases l with
    | nil => cases h
    | cons e l =>
      cases qs with
      | nil => cases h'
      | cons q qs =>
        simp only [List.map_cons, List.cons.injEq, Prod.mk.injEq] at h h'
        rw [ih h.2 h'.2, param_inj (BitVec.eq_of_toNat_eq (h.1.1.trans h'.1.1.symm)) h.1.2 h'.1.2]

/-- C40: different parameter lists never serialize alike. -/
theorem C40_injective {ps qs : List TransportParameter} (hp : ∀ p ∈ ps, InMemory p) (hq : ∀ q ∈ qs, InMemory q) {bs}
    (h1 : serializeAll ps = .ok bs) (h2 : serializeAll qs = .ok bs) : ps = qs := by
  obtain ⟨l, t1, f1⟩ := serializeAll_tlvs hp h1
  obtain ⟨l', t2, f2⟩ := serializeAll_tlvs hq h2
  cases C40_unique_split t1 t2
  exact params_inj f1 f2

/-- The hypotheses are met by realistic lists. -/
example : serializeAll [.maxIdleTimeout 30000, .disableActiveMigration, .initialSourceConnectionId [1, 2, 3]]
    = .ok [1, 4, 0x80, 0, 0x75, 0x30, 0x0c, 0, 0x0f, 3, 1, 2, 3] := by decide +kernel
example : (TransportParameter.initialMaxData (BitVec.ofNat 64 (2 ^ 62))).serialize = .err (.internalError "var int overflow") := by
  decide +kernel
example : InMemory (.initialSourceConnectionId [1, 2, 3]) := by unfold InMemory; decide
example : TLVs [(1, [5]), (12, [])] [1, 1, 5, 12, 0] :=
  .cons (idb := [1]) (lb := [1]) ⟨0, by decide⟩ ⟨0, by decide⟩ (.cons (idb := [12]) (lb := [0]) ⟨0, by decide⟩ ⟨0, by decide⟩ .nil)

/-! ## C41 -/

/-- C41, full statement: the value of `preferred_address` has the RFC 9000 form (for some stateless reset token). -/
def C41Statement : Prop := ∀ x : PreferredAddress, x.connectionId.length ≤ 20 → ∃ token, PreferredAddressWire x token x.toBytes

private theorem wire_length {x token v} (h : PreferredAddressWire x token v) : v.length = 41 + x.connectionId.length := by
  obtain ⟨a4, p4, a6, p6, len, rfl, h1, -, h2, -, h3, -, h4, -, -, h5⟩ := h
  simp [h1, h2, h3, h4, h5]
  omega

/-- C41 is false for every preferred address: the connection id length and the stateless reset token are missing. -/
theorem C41_never (x : PreferredAddress) (token : Bytes) : ¬ PreferredAddressWire x token x.toBytes := by
  intro h
  have := wire_length h
  rw [preferred_length] at this
  omega

theorem C41_false : ¬ C41Statement := by
  intro h
  obtain ⟨t, h⟩ := h ⟨0x7f000001, 443, 1, 443, [1, 2, 3, 4]⟩ (by decide)
  exact C41_never _ _ h

/-- Nor is it the RFC 9000 form of any other preferred address when the id has at most 16 bytes, so that a peer must reject
it as malformed. -/
theorem C41_unreadable (x : PreferredAddress) (hx : x.connectionId.length ≤ 16) (y : PreferredAddress) (token : Bytes) :
    ¬ PreferredAddressWire y token x.toBytes := by
  intro h
  have := wire_length h
  rw [preferred_length] at this
  omega

/-- And for longer ids a peer reads a different address: it takes the first id byte as the id length. -/
theorem C41_misread (x y : PreferredAddress) (token : Bytes) (h : PreferredAddressWire y token x.toBytes) :
    ∃ len : U8, x.connectionId = len :: (y.connectionId ++ token) ∧ y.connectionId.length + 17 = x.connectionId.length := by
  have hl := wire_length h
  rw [preferred_length] at hl
  obtain ⟨a4, p4, a6, p6, len, e, h1, -, h2, -, h3, -, h4, -, -, -⟩ := h
  simp only [PreferredAddress.toBytes, List.append_assoc] at e
  obtain ⟨-, e⟩ := List.append_inj e (by simp [h1])
  obtain ⟨-, e⟩ := List.append_inj e (by simp [h2])
  obtain ⟨-, e⟩ := List.append_inj e (by simp [h3])
  obtain ⟨-, e⟩ := List.append_inj e (by simp [h4])
  exact ⟨len, e, by omega⟩

/-- C41, exact: the preferred addresses a peer can read from it are those with the same addresses and ports whose id and token, after a byte that
happens to be the length of that id, make up the id. -/
theorem C41_exact (x y : PreferredAddress) (token : Bytes) : PreferredAddressWire y token x.toBytes ↔
    y.ipv4Address = x.ipv4Address ∧ y.ipv4Port = x.ipv4Port ∧ y.ipv6Address = x.ipv6Address ∧ y.ipv6Port = x.ipv6Port ∧ token.length = 16 ∧
      ∃ len : U8, len.toNat = y.connectionId.length ∧ x.connectionId = len :: (y.connectionId ++ token) := by
  constructor
  · rintro ⟨a4, p4, a6, p6, len, e, h1, v1, h2, v2, h3, v3, h4, v4, hl, ht⟩
    simp only [PreferredAddress.toBytes, List.append_assoc] at e
    obtain ⟨q1, e⟩ := List.append_inj e (by simp [h1])
    obtain ⟨q2, e⟩ := List.append_inj e (by simp [h2])
    obtain ⟨q3, e⟩ := List.append_inj e (by simp [h3])
    obtain ⟨q4, e⟩ := List.append_inj e (by simp [h4])
    rw [← q1, beNat_toBeBytes' 4] at v1
    rw [← q2, beNat_toBeBytes' 2] at v2
    rw [← q3, beNat_toBeBytes' 16] at v3
    rw [← q4, beNat_toBeBytes' 2] at v4
    exact ⟨BitVec.eq_of_toNat_eq v1.symm, BitVec.eq_of_toNat_eq v2.symm, BitVec.eq_of_toNat_eq v3.symm, BitVec.eq_of_toNat_eq v4.symm, ht, len, hl, e⟩
  · rintro ⟨e1, e2, e3, e4, ht, len, hl, e⟩
    refine ⟨toBeBytes 4 x.ipv4Address, toBeBytes 2 x.ipv4Port, toBeBytes 16 x.ipv6Address, toBeBytes 2 x.ipv6Port, len, ?_, by simp,
      by rw [e1]; exact beNat_toBeBytes' 4 _, by simp, by rw [e2]; exact beNat_toBeBytes' 2 _, by simp, by rw [e3]; exact beNat_toBeBytes' 16 _, by simp,
      by rw [e4]; exact beNat_toBeBytes' 2 _, hl, ht⟩
    simp [PreferredAddress.toBytes, e]

/-- The hypothesis of `C41_misread` can be met, and so can both sides of `C41_exact`: a 17-byte id starting with a zero byte. -/
example : PreferredAddressWire ⟨0x7f000001, 443, 1, 443, []⟩ (List.replicate 16 7)
    (PreferredAddress.toBytes ⟨0x7f000001, 443, 1, 443, 0 :: List.replicate 16 7⟩) :=
  ⟨[0x7f, 0, 0, 1], [1, 0xbb], [0, 0, 0, 0, 0, 0, 0, 0, 0, 0, 0, 0, 0, 0, 0, 1], [1, 0xbb], 0, by decide +kernel⟩

/-- C41, the part that holds: the addresses and ports are where RFC 9000 puts them, followed by the id. Missing: the length
byte before the id and the stateless reset token after it (`C41_never`). -/
theorem C41_addresses_partial (x : PreferredAddress) :
    ∃ a4 p4 a6 p6 : Bytes, x.toBytes = a4 ++ p4 ++ a6 ++ p6 ++ x.connectionId
      ∧ a4.length = 4 ∧ beNat a4 = x.ipv4Address.toNat ∧ p4.length = 2 ∧ beNat p4 = x.ipv4Port.toNat
      ∧ a6.length = 16 ∧ beNat a6 = x.ipv6Address.toNat ∧ p6.length = 2 ∧ beNat p6 = x.ipv6Port.toNat :=
  ⟨toBeBytes 4 x.ipv4Address, toBeBytes 2 x.ipv4Port, toBeBytes 16 x.ipv6Address, toBeBytes 2 x.ipv6Port, rfl, by simp,
    beNat_toBeBytes' 4 _, by simp, beNat_toBeBytes' 2 _, by simp, beNat_toBeBytes' 16 _, by simp, beNat_toBeBytes' 2 _⟩

/-! ## C42 -/

/-- C42: every error has its registered code. -/
theorem C42_code (e : Error) : (errorName e, e.toErrorByte.toNat) ∈ errorCodes := by
  cases e <;> simp [errorName, errorCodes, Error.toErrorByte]

/-- C42: errors have equal codes only if they are of the same kind, i.e. equal up to the message of an internal error. -/
theorem C42_distinct (e f : Error) (h : e.toErrorByte = f.toErrorByte) :
    e = f ∨ ∃ m n, e = .internalError m ∧ f = .internalError n := by
  cases e <;> cases f <;> first
    | exact .inl rfl
    | exact .inr ⟨_, _, rfl, rfl⟩
    | (exfalso; simp [Error.toErrorByte] at h; done)

/-- C42: every registered code is reached by some error. -/
theorem C42_complete (n : String) (c : Nat) (h : (n, c) ∈ errorCodes) :
    ∃ e : Error, errorName e = n ∧ e.toErrorByte.toNat = c := by
  have key : ∀ p ∈ errorCodes, ∃ e ∈ [Error.noError, .internalError "", .connectionRefused, .flowControlError, .streamLimitError,
      .streamStateError, .finalSizeError, .frameEncodingError, .transportParameterError, .connectionIdLimitError,
      .protocolViolation, .invalidToken, .applicationError, .cryptoBufferExceeded, .keyUpdateError, .aeadLimitReached,
      .noViablePath], errorName e = p.1 ∧ e.toErrorByte.toNat = p.2 := by decide +kernel
  obtain ⟨e, -, h1, h2⟩ := key _ h
  exact ⟨e, h1, h2⟩

example : (Error.internalError "x").toErrorByte = (Error.internalError "y").toErrorByte := rfl

end QuicSea
