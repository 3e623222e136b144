import Verif.Props.Keyed
import Verif.Props.Authentic
/-
C117: what the refusal of a forged packet tells about the keys.
-/
namespace Spec
open QuicSea

/-- What whoever sends a datagram may come to see of the call that decodes it: that it went well, its error, or that it panicked. -/
inductive Seen where
  | ok
  | err (e : Error)
  | panic
deriving DecidableEq

def seenOf : Out α → Seen
  | .ok _ => .ok
  | .err e => .err e
  | .panic _ => .panic

/-- The connection holds these keys for receiving, and none for the other spaces; nothing has been acknowledged. -/
def Holds (P : Prims) (c : Connection) (f : PnSpace → Option Keys) : Prop :=
  ∀ sp, (c.pnInfo sp).remoteTlsSecrets = (f sp).map (secretsOf P) ∧ (c.pnInfo sp).largestRemoteAck = none ∧ ∀ k, f sp = some k → KeyLens k

/-- `bytes` start with a long header with first byte `b`, of a kind whose keys are those of `sp`, with Length `L`; `mid` are the bytes after `b` up to and with
the Length, `pn` the four bytes at the place of the packet number, `body` what follows. (RFC 9000 section 17.2; the sample for header protection is the start of `body`, RFC 9001 section 5.4.2.) -/
def CutAt (bytes : Bytes) (sp : PnSpace) (b : U8) (mid : Bytes) (L : Nat) (pn body : Bytes) : Prop :=
  ∃ (h : LongPacketHeader) (hb tok lb : Bytes), h.headerByte = b ∧ 128 ≤ b.toNat ∧ LongFields h (b :: hb) ∧ KindIn (packetKind b h.version) sp ∧
    BeforeLength (packetKind b h.version) tok ∧ IsVarInt lb L ∧ pn.length = 4 ∧ mid = hb ++ tok ++ lb ∧ bytes = b :: mid ++ pn ++ body
def Cut (bytes : Bytes) (sp : PnSpace) (b : U8) (L : Nat) (body : Bytes) : Prop := ∃ mid pn, CutAt bytes sp b mid L pn body

/-- The packet number length that the first byte shows once the protection under `k` is removed (RFC 9001 section 5.4.1). -/
def lengthUnder (P : Prims) (k : Keys) (b : U8) (body : Bytes) : Nat :=
  match P.aesEcb k.hp (body.take 16) with
  | some (m0 :: _) => (b ^^^ (m0 &&& 0x0f)).toNat % 4 + 1
  | _ => 0

/-- With the first byte `b`, `mid` and `pn` before it, `data` at the start of `body` does not open under `k`, once header protection is removed from `bits` of
`b` and from `pn` (RFC 9001 sections 5.3, 5.4). The number may be taken from the bytes of the packet number or, as the crate does for Handshake packets, from
all four of `pn`. -/
def Shut (P : Prims) (k : Keys) (bits b : U8) (mid pn body data : Bytes) : Prop :=
  ∀ (m0 m1 m2 m3 m4 : U8) (r plainPn num nb ct tag : Bytes), P.aesEcb k.hp (body.take 16) = some (m0 :: m1 :: m2 :: m3 :: m4 :: r) →
    plainPn = pn.zipWith (· ^^^ ·) [m1, m2, m3, m4] → num = plainPn ∨ num = plainPn.take ((b ^^^ (m0 &&& bits)).toNat % 4 + 1) →
    nb.length = 8 → beNat nb = beNat num → data = ct ++ tag → tag.length = 16 →
    P.gcmOpen k.key (rfcNonce k.iv nb) ((b ^^^ (m0 &&& bits)) :: mid ++ plainPn.take ((b ^^^ (m0 &&& bits)).toNat % 4 + 1)) ct tag = none
/-- The packet at the start of `bytes` does not open under the keys `f`: neither as a packet with a Length, nor as one with a short header. -/
def Forged (P : Prims) (f : PnSpace → Option Keys) (bytes : Bytes) : Prop :=
  (∀ sp k b mid L pn body data, f sp = some k → CutAt bytes sp b mid L pn body → data <+: body → data.length + lengthUnder P k b body = L →
    Shut P k 0x0f b mid pn body data) ∧
  ∀ k b mid pn body, f .application = some k → b.toNat < 128 → mid.length = 8 → pn.length = 4 → bytes = b :: mid ++ pn ++ body → Shut P k 0x1f b mid pn body body

def notEnough : Error := .internalError "not enough bytes for var_bytes"
def notOpened : Error := .internalError "error in aes_128_gcm decryption"
def noKeys : Error := .internalError "attempted to retrieve unset remote tls secrets"

/-- What is seen when a forged packet is refused that has Length `L`, `R` bytes after the first four of the packet number, and a packet number of
`l` bytes. -/
def refusal (bp : Profile) (L R l : Nat) : Seen :=
  if L < l then (match bp with | .debug => .panic | .release => .err notEnough)
  else if R < L - l then .err notEnough
  else if L - l < 16 then .panic
  else .err notOpened

end Spec

namespace QuicSea
open Spec

theorem seen_map {m : Rd α} {g : α → β} (s : Stream) : seenOf ((m >>= fun a => pure (g a)) s).1 = seenOf (m s).1 := by
  rw [Rd.bind_apply]
  rcases m s with ⟨o, s'⟩
  cases o <;> rfl
theorem seen_bind {m : Rd α} {f : α → Rd β} {g : α → Rd γ} {s : Stream} (h : ∀ a s', m s = (.ok a, s') → seenOf (f a s').1 = seenOf (g a s').1) :
    seenOf ((m >>= f) s).1 = seenOf ((m >>= g) s).1 := by
  rw [Rd.bind_apply, Rd.bind_apply]
  rcases hm : m s with ⟨o, s'⟩
  cases o with
  | ok a => exact h a s' hm
  | err e => rfl
  | panic w => rfl

theorem holds_some {P : Prims} {c : Connection} {f : PnSpace → Option Keys} (h : Holds P c f) {sp : PnSpace} {k : Keys} (hk : f sp = some k) :
    c.remoteSecrets sp = .ok (secretsOf P k) := by
  unfold Connection.remoteSecrets
  rw [(h sp).1, hk]; rfl
theorem holds_none {P : Prims} {c : Connection} {f : PnSpace → Option Keys} (h : Holds P c f) {sp : PnSpace} (hk : f sp = none) :
    c.remoteSecrets sp = .err noKeys := by
  unfold Connection.remoteSecrets
  rw [(h sp).1, hk]; rfl

theorem varBytes_missing {n : Nat} {bs : Bytes} (h : bs.length < n) : varBytesFromStream n (makeResultStream bs) = (.err notEnough, []) :=
  (C09_var_bytes_exact n bs).2.1 h

/-- From the packet number on, up to the ciphertext. -/
theorem tail_seen {P : Prims} (hP : PrimLaws P) {bp : Profile} {c : Connection} {f : PnSpace → Option Keys} (hc : Holds P c f) (sp : PnSpace) (whole : Bool)
    {lenOf : Mask → Out Nat} {hdr : Mask → Out Bytes} {b mb : U8} (hlen : ∀ m, lenOf m = .ok ((b ^^^ (m.m0 &&& mb)).toNat % 4 + 1))
    (payload : Nat → Rd Bytes) (mid bs : Bytes) :
    (bs.length < 4 → seenOf (tail bp c sp whole lenOf hdr payload mid (makeResultStream bs)).1 = .err notEnough) ∧
    (4 ≤ bs.length → f sp = none → seenOf (tail bp c sp whole lenOf hdr payload mid (makeResultStream bs)).1 = .err noKeys) ∧
    (4 ≤ bs.length → bs.length < 20 → ∀ k, f sp = some k → seenOf (tail bp c sp whole lenOf hdr payload mid (makeResultStream bs)).1 = .err notEnough) ∧
    (∀ pnP body k, bs = pnP ++ body → pnP.length = 4 → 16 ≤ body.length → f sp = some k → ∃ (m : Mask) (r num : Bytes),
      P.aesEcb k.hp (body.take 16) = some (m.m0 :: m.m1 :: m.m2 :: m.m3 :: m.m4 :: r) ∧ num.length ≤ 4 ∧
      (num = pnP.zipWith (· ^^^ ·) [m.m1, m.m2, m.m3, m.m4] ∨ num = (pnP.zipWith (· ^^^ ·) [m.m1, m.m2, m.m3, m.m4]).take ((b ^^^ (m.m0 &&& mb)).toNat % 4 + 1)) ∧
      tail bp c sp whole lenOf hdr payload mid (makeResultStream bs) =
        (payload ((b ^^^ (m.m0 &&& mb)).toNat % 4 + 1) >>= tailEnd c sp hdr mid m
          ((pnP.zipWith (· ^^^ ·) [m.m1, m.m2, m.m3, m.m4]).take ((b ^^^ (m.m0 &&& mb)).toNat % 4 + 1)) (BitVec.ofNat 64 (beNat num))) (makeResultStream body)) := by
  have split : 4 ≤ bs.length → makeResultStream bs = makeResultStream (bs.take 4) ++ makeResultStream (bs.drop 4) := by
    intro _; rw [← makeResultStream_append, List.take_append_drop]
  refine ⟨fun h => ?_, fun h hn => ?_, fun h h20 k hk => ?_, fun pnP body k e h4 h16 hk => ?_⟩
  · unfold tail
    rw [Rd.bind_err (varBytes_missing h)]; rfl
  · unfold tail
    rw [split h, Rd.bind_ok (varBytes_reads' (by rw [List.length_take]; omega) _), Rd.bind_ok (Rd.cloned_apply _),
      Rd.bind_err (e := noKeys) (s' := makeResultStream (bs.drop 4)) (by rw [Rd.lift_apply, getRemoteHpMask_noKeys (holds_none hc hn)])]
    rfl
  · unfold tail
    rw [split h, Rd.bind_ok (varBytes_reads' (by rw [List.length_take]; omega) _), Rd.bind_ok (Rd.cloned_apply _),
      Rd.bind_err (e := notEnough) (s' := makeResultStream (bs.drop 4)) ?_]
    · rfl
    · rw [Rd.lift_apply, getRemoteHpMask_eq (holds_some hc hk)]
      unfold Secrets.getHeaderProtectionMask
      rw [Rd.bind_err (varBytes_missing (n := (secretsOf P k).cipherSuite.sampleLen) (by
        rw [List.length_drop]; show _ < 16; omega))]
  · have hl : (body.take 16).length = 16 := by rw [List.length_take]; omega
    obtain ⟨m, hm⟩ := hpMask_noPanic hP ((hc sp).2.2 k hk).1 hl
    obtain ⟨r, hr⟩ := hpMask_ok.mp hm
    have hle : (if whole then pnP.zipWith (· ^^^ ·) (maskList m)
        else (pnP.zipWith (· ^^^ ·) (maskList m)).take ((b ^^^ (m.m0 &&& mb)).toNat % 4 + 1)).length ≤ 4 := by
      split
      · simp [h4, maskList]
      · rw [List.length_take]; omega
    have := tail_eval (bp := bp) (whole := whole) (hdr := hdr) (payload := payload) (mid := mid) (holds_some hc hk) h4 (smp := body.take 16)
      (s1 := makeResultStream (body.drop 16)) (s := makeResultStream body)
      (by rw [← makeResultStream_append, List.take_append_drop]) hl hm (hlen m) (by omega) (reconstruct_none bp c sp _ hle (hc sp).2.1)
    rw [e, makeResultStream_append]
    exact ⟨m, _, _, hr, hle, (by cases whole; exact .inr rfl; exact .inl rfl), this⟩

/-- In terms of the code's nonce. -/
theorem shut_none {P : Prims} {k : Keys} (hkl : KeyLens k) {bits b : U8} {mid pn body data : Bytes} (h : Shut P k bits b mid pn body data) {m : Mask} {r num : Bytes}
    (hr : P.aesEcb k.hp (body.take 16) = some (m.m0 :: m.m1 :: m.m2 :: m.m3 :: m.m4 :: r))
    (hn : num = pn.zipWith (· ^^^ ·) [m.m1, m.m2, m.m3, m.m4] ∨ num = (pn.zipWith (· ^^^ ·) [m.m1, m.m2, m.m3, m.m4]).take ((b ^^^ (m.m0 &&& bits)).toNat % 4 + 1))
    (hl : num.length ≤ 4) {ct tag : Bytes} (e : data = ct ++ tag) (ht : tag.length = 16) :
    P.gcmOpen k.key (packetNonce k.iv (BitVec.ofNat 64 (beNat num))) ((b ^^^ (m.m0 &&& bits)) :: mid ++
      (pn.zipWith (· ^^^ ·) [m.m1, m.m2, m.m3, m.m4]).take ((b ^^^ (m.m0 &&& bits)).toNat % 4 + 1)) ct tag = none := by
  have h1 := beNat_lt num
  have h2 : 256 ^ num.length ≤ 256 ^ 4 := Nat.pow_le_pow_right (by decide) hl
  have h3 : (256 : Nat) ^ 4 = 4294967296 := by decide
  have hv : beNat (toBeBytes 8 (BitVec.ofNat 64 (beNat num))) = beNat num := by rw [beNat_toBeBytes' 8 _, ofNat64_toNat (by omega)]
  rw [nonce_of_bytes hkl.2.1 ⟨toBeBytes_length .., hv⟩]
  exact h _ _ _ _ _ r _ num _ ct tag hr rfl hn (toBeBytes_length ..) hv e ht

/-- A ciphertext that does not open. -/
theorem tailEnd_seen {P : Prims} {c : Connection} {f : PnSpace → Option Keys} (hc : Holds P c f) {sp : PnSpace} {k : Keys} (hk : f sp = some k)
    {hdr : Mask → Out Bytes} {hb : Bytes} {b : U8} {mid pnB data : Bytes} {m : Mask} {pn : U64} (hhdr : hdr m = .ok (b :: hb))
    (hf : ∀ ct tag, data = ct ++ tag → tag.length = 16 → P.gcmOpen k.key (packetNonce k.iv pn) (b :: (hb ++ mid) ++ pnB) ct tag = none) (s : Stream) :
    seenOf (tailEnd c sp hdr mid m pnB pn data s).1 = if data.length < 16 then .panic else .err notOpened := by
  unfold tailEnd
  rw [Rd.bind_ok (a := b :: hb) (s' := s) (by rw [Rd.lift_apply, hhdr]), Rd.bind_apply, Rd.lift_apply, decrypt_eq (holds_some hc hk)]
  have : internalDecryptAes128Gcm P k.key (packetNonce k.iv pn) (b :: hb ++ mid ++ pnB) data =
      if data.length < 16 then .panic "attempt to subtract with overflow / slice index out of range" else .err notOpened := by
    unfold internalDecryptAes128Gcm
    rw [show AES_128_GCM_TAG_LEN = 16 from rfl]
    split
    · rfl
    · dsimp only
      rw [show b :: hb ++ mid ++ pnB = b :: (hb ++ mid) ++ pnB by simp]
      rw [hf (data.take (data.length - 16)) (data.drop (data.length - 16)) (List.take_append_drop _ _).symm (by rw [List.length_drop]; omega)]
      rfl
  rw [this]
  by_cases g : data.length < 16
  · rw [if_pos g, if_pos g]; rfl
  · rw [if_neg g, if_neg g]; rfl

/-- The whole of what follows Length, or the first byte's header if there is none. -/
theorem tail_refusal {P : Prims} (hP : PrimLaws P) {bp : Profile} {c : Connection} {f : PnSpace → Option Keys} (hc : Holds P c f) (sp : PnSpace) (whole : Bool)
    {lenOf : Mask → Out Nat} {hdr : Mask → Out Bytes} {b : U8} (hlen : ∀ m, lenOf m = .ok ((b ^^^ (m.m0 &&& 0x0f)).toNat % 4 + 1))
    {hb : Bytes} (hhdr : ∀ m, hdr m = .ok ((b ^^^ (m.m0 &&& 0x0f)) :: hb)) (L : U64) (mid pnP body : Bytes) (k : Keys) (h4 : pnP.length = 4) (h16 : 16 ≤ body.length)
    (hk : f sp = some k) (hs : body.length + 4 < 2 ^ 64)
    (hf : ∀ d, d <+: body → d.length + lengthUnder P k b body = L.toNat → Shut P k 0x0f b (hb ++ mid) pnP body d) :
    seenOf (tail bp c sp whole lenOf hdr (lenBytes bp L) mid (makeResultStream (pnP ++ body))).1 = refusal bp L.toNat body.length (lengthUnder P k b body) := by
  obtain ⟨m, r, num, hr, hpl, hnum, e⟩ := (tail_seen hP (bp := bp) hc sp whole hlen (hdr := hdr) (lenBytes bp L) mid (pnP ++ body)).2.2.2 pnP body k rfl h4 h16 hk
  have hl : lengthUnder P k b body = (b ^^^ (m.m0 &&& 0x0f)).toNat % 4 + 1 := by unfold lengthUnder; rw [hr]
  have hno := fun d hd h ct tag hct ht => shut_none ((hc sp).2.2 k hk) (hf d hd h) hr hnum hpl (ct := ct) (tag := tag) hct ht
  rw [e, hl]
  rw [hl] at hno
  generalize hn : (b ^^^ (m.m0 &&& 0x0f)).toNat % 4 + 1 = n
  have hn4 : n ≤ 4 := by omega
  have hn1 : 1 ≤ n := by omega
  rw [hn] at hno
  clear hn e hl hnum
  unfold refusal lenBytes
  rw [Rd.bind_assoc]
  by_cases h1 : L.toNat < n
  · rw [if_pos h1]
    cases bp with
    | debug =>
      rw [Rd.bind_panic (e := "attempt to subtract with overflow") (s' := makeResultStream body)]
      · rfl
      · rw [Rd.lift_apply]; unfold subUsize; rw [if_neg (by omega)]
    | release =>
      rw [Rd.bind_ok (a := 2 ^ 64 + L.toNat - n) (s' := makeResultStream body) (by rw [Rd.lift_apply]; unfold subUsize; rw [if_neg (by omega)]),
        Rd.bind_err (varBytes_missing (by omega))]
      rfl
  · rw [if_neg h1, Rd.bind_ok (a := L.toNat - n) (s' := makeResultStream body) (by rw [Rd.lift_apply, subUsize_ok (by omega)])]
    by_cases h2 : body.length < L.toNat - n
    · rw [if_pos h2, Rd.bind_err (varBytes_missing h2)]; rfl
    · rw [if_neg h2]
      have hb : makeResultStream body = makeResultStream (body.take (L.toNat - n)) ++ makeResultStream (body.drop (L.toNat - n)) := by
        rw [← makeResultStream_append, List.take_append_drop]
      have hlt : (body.take (L.toNat - n)).length = L.toNat - n := by rw [List.length_take]; omega
      rw [hb, Rd.bind_ok (varBytes_reads' hlt _), tailEnd_seen hc hk (hhdr m) (hno _ (List.take_prefix _ _) (by omega)), hlt]

/-! ### The packets with a Length field -/

/-- What is read between the header and the Length. -/
def preReader : PacketType → Rd Bytes
  | .initial => do
    let t ← varIntWithBytesFromStream
    let token ← varBytesFromStream t.1.toNat
    pure (t.2 ++ token)
  | _ => pure []
theorem pre_reads {kind : PacketType} {t : Bytes} (h : BeforeLength kind t) (s : Stream) : preReader kind (makeResultStream t ++ s) = (.ok t, s) := by
  unfold BeforeLength at h
  split at h
  · obtain ⟨tl, token, rfl, ht⟩ := h
    have ht64 : (BitVec.ofNat 64 token.length).toNat = token.length := ofNat64_toNat (by have := ht.lt; omega)
    show (varIntWithBytesFromStream >>= fun t => varBytesFromStream t.1.toNat >>= fun token => pure (t.2 ++ token) : Rd Bytes) _ = _
    rw [makeResultStream_append, List.append_assoc, Rd.bind_ok (varIntWithBytes_reads (v := BitVec.ofNat 64 token.length) (by rw [ht64]; exact ht) _),
      Rd.bind_ok (varBytes_reads' (by dsimp only; rw [ht64]) s)]
    rfl
  · subst h
    unfold preReader
    split
    · contradiction
    · rfl
theorem pre_sound {kind : PacketType} {s s' : Stream} {t : Bytes} (h : preReader kind s = (.ok t, s')) :
    s = makeResultStream t ++ s' ∧ BeforeLength kind t := by
  unfold preReader at h
  split at h
  · obtain ⟨⟨t, tl⟩, s2, g1, h1⟩ := Rd.bind_eq_ok h
    obtain ⟨tok, s3, g2, h2⟩ := Rd.bind_eq_ok h1
    obtain ⟨b1, a1, a2, a3⟩ := varIntWithBytes_sound _ _ _ g1
    obtain ⟨b2, c1, c2, c3⟩ := varBytes_sound _ _ _ _ g2
    cases h2
    dsimp only at a2 a3 c3
    subst c2
    subst tl
    exact ⟨by rw [a1, c1]; simp, b1, b2, rfl, by rw [c3]; exact a3⟩
  · cases h
    refine ⟨rfl, ?_⟩
    unfold BeforeLength
    split
    · contradiction
    · rfl

/-- The three readers are the same up to the packet they return. -/
theorem longReader_seen {bp : Profile} {c : Connection} {s s1 : Stream} {x : LongPacketHeader} (hx : nextHeaderFromStream s = (.ok (.long x), s1))
    {sp : PnSpace} (hk : KindIn (packetKind x.headerByte x.version) sp) : ∃ whole,
    seenOf (decodeNextPacket bp c s).1 = seenOf ((preReader (packetKind x.headerByte x.version) >>= fun t => varIntWithBytesFromStream >>= fun l =>
      tail bp c sp whole (fun m => (x.removeProtection m).packetNumberLength) (fun m => (x.removeProtection m).toBytes) (lenBytes bp l.1) (t ++ l.2)) s1).1 := by
  obtain ⟨hb, e0, hf, h128, hp, r1, r2⟩ := long_prefix hx
  rw [decodeNext_long hx]
  rcases hk with ⟨hk, rfl⟩ | ⟨hk, rfl⟩ | ⟨hk, rfl⟩
  · refine ⟨false, ?_⟩
    rw [hk]
    unfold longReader preReader
    dsimp only
    rw [seen_map, initial_eq, Rd.bind_ok r1, Rd.bind_ok r2]
    simp only [Rd.bind_assoc, Rd.pure_bind]
    refine seen_bind fun t s2 _ => seen_bind fun tok s3 _ => seen_bind fun l s4 _ => ?_
    rw [seen_map]
  · refine ⟨true, ?_⟩
    rw [hk]
    unfold longReader preReader
    dsimp only
    rw [seen_map, handshake_eq, Rd.bind_ok r1, Rd.bind_ok r2]
    simp only [Rd.pure_bind, List.nil_append]
    refine seen_bind fun l s4 _ => ?_
    rw [seen_map]
  · refine ⟨false, ?_⟩
    rw [hk]
    unfold longReader preReader
    dsimp only
    rw [seen_map, zeroRtt_eq, Rd.bind_ok r1, Rd.bind_ok r2]
    simp only [Rd.pure_bind, List.nil_append]
    refine seen_bind fun l s4 _ => ?_
    rw [seen_map]

theorem kindIn_not {kind : PacketType} {sp : PnSpace} (h : KindIn kind sp) : kind ≠ .oneRtt ∧ kind ≠ .versionNegotiation ∧ protectable kind = true := by
  rcases h with ⟨rfl, -⟩ | ⟨rfl, -⟩ | ⟨rfl, -⟩ <;> exact ⟨by decide, by decide, rfl⟩
theorem long_lens {x : LongPacketHeader} {hb : Bytes} (hf : LongFields x (x.headerByte :: hb)) {sp : PnSpace}
    (hp : x.isProtected = protectable (packetKind x.headerByte x.version)) (hk : KindIn (packetKind x.headerByte x.version) sp) :
    (∀ m, (x.removeProtection m).packetNumberLength = .ok ((x.headerByte ^^^ (m.m0 &&& 0x0f)).toNat % 4 + 1)) ∧ ∀ m, (x.removeProtection m).toBytes = .ok ((x.headerByte ^^^ (m.m0 &&& 0x0f)) :: hb) := by
  obtain ⟨k1, k2, k3⟩ := kindIn_not hk
  have hv : x.version.toNat ≠ 0 := kind_version k1 k2
  rw [k3] at hp
  have hrem := removeProtection_long (x := x) hp
  refine ⟨fun m => ?_, fun m => ?_⟩
  · rw [hrem]; exact pnLength_eq.mpr ⟨rfl, rfl⟩
  · rw [hrem]
    exact longFields_toBytes (h := { x with headerByte := x.headerByte ^^^ (m.m0 &&& 0x0f), isProtected := false }) hv (unprot_fields hf)

/-- What is seen of the decoding of a forged packet that has a Length field. -/
theorem decode_cut {P : Prims} (hP : PrimLaws P) {bp : Profile} {c : Connection} {f : PnSpace → Option Keys} (hc : Holds P c f) {data : Bytes}
    (hs : data.length < 2 ^ 64) {sp : PnSpace} {b : U8} {L : Nat} {body : Bytes} (h : Cut data sp b L body) (h16 : 16 ≤ body.length) {k : Keys} (hk : f sp = some k)
    (hf : Forged P f data) :
    seenOf (decodeNextPacket bp c (makeResultStream data)).1 = refusal bp L body.length (lengthUnder P k b body) := by
  obtain ⟨mid, pn, h⟩ := h
  have hfd := fun d => hf.1 sp k b mid L pn body d hk h
  obtain ⟨x, hb, tok, lb, rfl, h128, w1, hki, w2, w3, h4, rfl, rfl⟩ := h
  have hl64 : (BitVec.ofNat 64 L).toNat = L := ofNat64_toNat (by have := w3.lt; omega)
  have hx : nextHeaderFromStream (makeResultStream (x.headerByte :: (hb ++ tok ++ lb) ++ pn ++ body)) =
      (.ok (.long { x with isProtected := protectable (packetKind x.headerByte x.version) }), makeResultStream (tok ++ lb ++ pn ++ body)) :=
    nextHeader_long_iff.mpr ⟨x.headerByte :: hb, by simp [makeResultStream_append], w1, h128, rfl⟩
  obtain ⟨whole, e⟩ := longReader_seen (bp := bp) (c := c) hx hki
  obtain ⟨hlen, hhdr⟩ := long_lens (x := { x with isProtected := protectable (packetKind x.headerByte x.version) }) w1 rfl hki
  rw [e]
  simp only [makeResultStream_append, List.append_assoc]
  rw [Rd.bind_ok (pre_reads w2 _), Rd.bind_ok (varIntWithBytes_reads (v := BitVec.ofNat 64 L) (by rw [hl64]; exact w3) _), ← makeResultStream_append]
  rw [tail_refusal hP hc sp whole hlen hhdr _ _ pn body k h4 h16 hk (by simp at hs; omega) (fun d hd h => ?_), hl64]
  rw [← List.append_assoc]
  exact hfd d hd (by rw [hl64] at h; exact h)

/-- Otherwise only whether there are keys matters. -/
theorem long_fate {bp : Profile} {data : Bytes} {s1 : Stream} {x : LongPacketHeader} (hx : nextHeaderFromStream (makeResultStream data) = (.ok (.long x), s1))
    {sp : PnSpace} (hki : KindIn (packetKind x.headerByte x.version) sp) :
    (∃ b L body, Cut data sp b L body ∧ 16 ≤ body.length ∧ ∀ {P : Prims}, PrimLaws P → ∀ {c : Connection} {f : PnSpace → Option Keys}, Holds P c f → f sp = none →
      seenOf (decodeNextPacket bp c (makeResultStream data)).1 = .err noKeys) ∨
    ∃ g : Bool → Seen, (∀ b, g b ≠ .ok) ∧ ∀ {P : Prims}, PrimLaws P → ∀ {c : Connection} {f : PnSpace → Option Keys}, Holds P c f →
      seenOf (decodeNextPacket bp c (makeResultStream data)).1 = g (f sp).isSome := by
  obtain ⟨hb, e0, hlf, h128, hp, r1, r2⟩ := long_prefix hx
  obtain ⟨hlen, hhdr⟩ := long_lens hlf hp hki
  rcases hm : preReader (packetKind x.headerByte x.version) s1 with ⟨o, s2⟩
  cases o with
  | err e =>
    refine .inr ⟨fun _ => .err e, fun _ => nofun, fun _ c f _ => ?_⟩
    obtain ⟨w, e⟩ := longReader_seen (bp := bp) (c := c) hx hki
    rw [e, Rd.bind_err hm]; rfl
  | panic e =>
    refine .inr ⟨fun _ => .panic, fun _ => nofun, fun _ c f _ => ?_⟩
    obtain ⟨w, e⟩ := longReader_seen (bp := bp) (c := c) hx hki
    rw [e, Rd.bind_panic hm]; rfl
  | ok t =>
    obtain ⟨a1, a2⟩ := pre_sound hm
    rcases hm2 : varIntWithBytesFromStream s2 with ⟨o, s3⟩
    cases o with
    | err e =>
      refine .inr ⟨fun _ => .err e, fun _ => nofun, fun _ c f _ => ?_⟩
      obtain ⟨w, e⟩ := longReader_seen (bp := bp) (c := c) hx hki
      rw [e, Rd.bind_ok hm, Rd.bind_err hm2]; rfl
    | panic e =>
      refine .inr ⟨fun _ => .panic, fun _ => nofun, fun _ c f _ => ?_⟩
      obtain ⟨w, e⟩ := longReader_seen (bp := bp) (c := c) hx hki
      rw [e, Rd.bind_ok hm, Rd.bind_panic hm2]; rfl
    | ok l =>
      obtain ⟨lb, b1, b2, b3⟩ := varIntWithBytes_sound _ _ _ hm2
      have e0' := e0
      rw [a1, b1, ← List.append_assoc, ← List.append_assoc, ← makeResultStream_append, ← makeResultStream_append] at e0'
      obtain ⟨a, rest, e1, e2, rfl⟩ := mrs_split e0'
      have e2 := makeResultStream_inj e2
      by_cases g : 20 ≤ rest.length
      · refine .inl ⟨x.headerByte, l.1.toNat, rest.drop 4, ⟨hb ++ t ++ lb, rest.take 4, x, hb, t, lb, rfl, h128, hlf, hki, a2, b3, by rw [List.length_take]; omega, rfl, ?_⟩,
          by rw [List.length_drop]; omega, fun {P} hP {c} {f} hc hn => ?_⟩
        · rw [e1, ← e2, List.append_assoc _ (rest.take 4), List.take_append_drop]
          simp
        · obtain ⟨w, e⟩ := longReader_seen (bp := bp) (c := c) hx hki
          rw [e, Rd.bind_ok hm, Rd.bind_ok hm2]
          exact (tail_seen hP (bp := bp) hc sp w hlen (hdr := fun m => (x.removeProtection m).toBytes) (lenBytes bp l.1) (t ++ l.2) rest).2.1 (by omega) hn
      · refine .inr ⟨fun b => if rest.length < 4 then .err notEnough else if b then .err notEnough else .err noKeys, fun b => ?_, fun {P} hP {c} {f} hc => ?_⟩
        · dsimp only; split
          · exact nofun
          · split <;> exact nofun
        · obtain ⟨w, e⟩ := longReader_seen (bp := bp) (c := c) hx hki
          rw [e, Rd.bind_ok hm, Rd.bind_ok hm2]
          obtain ⟨t1, t2, t3, -⟩ := tail_seen hP (bp := bp) hc sp w hlen (hdr := fun m => (x.removeProtection m).toBytes) (lenBytes bp l.1) (t ++ l.2) rest
          dsimp only
          by_cases g4 : rest.length < 4
          · rw [if_pos g4]; exact t1 g4
          · rw [if_neg g4]
            cases hfa : f sp with
            | none => exact t2 (by omega) hfa
            | some k =>
              rw [if_pos (show (some k).isSome = true from rfl)]
              exact t3 (by omega) (by omega) k hfa
/-- In packets with a short header only whether there are keys matters. -/
theorem short_fate {bp : Profile} {data : Bytes} {s1 : Stream} {x : ShortPacketHeader} (hx : nextHeaderFromStream (makeResultStream data) = (.ok (.short x), s1)) :
    ∃ g : Bool → Seen, (∀ b, g b ≠ .ok) ∧ ∀ {P : Prims}, PrimLaws P → ∀ {c : Connection} {f : PnSpace → Option Keys}, Holds P c f →
      Forged P f data → seenOf (decodeNextPacket bp c (makeResultStream data)).1 = g (f .application).isSome := by
  obtain ⟨bs0, e0, hsf, h128, hp⟩ := nextHeader_short_iff.mp hx
  have hsf' := hsf
  obtain ⟨hb, rfl, l8, v8⟩ := hsf'
  simp only [List.singleton_append] at e0 hsf
  obtain ⟨a, rest, e1, e2, rfl⟩ := mrs_split e0
  have e2 := makeResultStream_inj e2
  have r1 : u8FromDatagram (makeResultStream data) = (.ok x.headerByte, makeResultStream hb ++ makeResultStream rest) := by rw [e0]; rfl
  have hrem : ∀ m, x.removeProtection m = { x with headerByte := x.headerByte ^^^ (m.m0 &&& 0x1f), isProtected := false } := by
    intro m
    unfold ShortPacketHeader.removeProtection
    rw [hp]; rfl
  have hlen : ∀ m, (x.removeProtection m).packetNumberLength = .ok ((x.headerByte ^^^ (m.m0 &&& 0x1f)).toNat % 4 + 1) := by
    intro m; rw [hrem]; exact short_pnLength rfl
  have hhdr : ∀ m, (x.removeProtection m).toBytes = .ok ((x.headerByte ^^^ (m.m0 &&& 0x1f)) :: hb) := by
    intro m
    rw [hrem]
    refine short_toBytes (h := { x with headerByte := x.headerByte ^^^ (m.m0 &&& 0x1f), isProtected := false }) ?_
    obtain ⟨d, e, l, v⟩ := hsf
    simp only [List.singleton_append, List.cons.injEq, true_and] at e
    exact ⟨d, by rw [e]; rfl, l, v⟩
  refine ⟨fun b => if rest.length < 4 then .err notEnough else if b then (if rest.length < 20 then .err notEnough else .err notOpened) else .err noKeys,
    fun b => ?_, fun {P} hP {c} {f} hc hf => ?_⟩
  · dsimp only; split
    · exact nofun
    · split
      · split <;> exact nofun
      · exact nofun
  rw [decodeNext_short hx, seen_map, oneRtt_eq, Rd.bind_ok r1, Rd.bind_ok (short_reads hsf hp _), seen_map]
  obtain ⟨t1, t2, t3, t4⟩ := tail_seen hP (bp := bp) hc .application false hlen (hdr := fun m => (x.removeProtection m).toBytes)
    (fun _ => allBytesFromStream) [] rest
  dsimp only
  by_cases g : rest.length < 4
  · rw [if_pos g]; exact t1 g
  · rw [if_neg g]
    cases hfa : f .application with
    | none => exact t2 (by omega) hfa
    | some k =>
      rw [if_pos (show (some k).isSome = true from rfl)]
      by_cases g2 : rest.length < 20
      · rw [if_pos g2]; exact t3 (by omega) g2 k hfa
      · rw [if_neg g2]
        obtain ⟨m, r, num, hr, hpl, hnum, e⟩ := t4 (rest.take 4) (rest.drop 4) k (List.take_append_drop 4 rest).symm (by rw [List.length_take]; omega)
          (by rw [List.length_drop]; omega) hfa
        have hsh := hf.2 k x.headerByte hb (rest.take 4) (rest.drop 4) hfa h128 l8 (by rw [List.length_take]; omega)
          (by rw [List.append_assoc, List.take_append_drop, e1, ← e2])
        rw [e, Rd.bind_ok (allBytes_run _),
          tailEnd_seen hc hfa (hhdr m) (fun ct tag h1 h2 => by
            rw [List.append_nil]; exact shut_none ((hc _).2.2 k hfa) hsh hr hnum hpl h1 h2),
          if_neg (by rw [List.length_drop]; omega)]

theorem kindIn_dec (kind : PacketType) : (∃ sp, KindIn kind sp) ∨
    (kind ≠ .initial ∧ kind ≠ .handshake ∧ kind ≠ .zeroRtt) ∧ ∀ (bp : Profile) (c c' : Connection), longReader bp c kind = longReader bp c' kind := by
  cases kind with
  | initial => exact .inl ⟨.initial, .inl ⟨rfl, rfl⟩⟩
  | handshake => exact .inl ⟨.handshake, .inr (.inl ⟨rfl, rfl⟩)⟩
  | zeroRtt => exact .inl ⟨.application, .inr (.inr ⟨rfl, rfl⟩)⟩
  | _ => exact .inr ⟨by decide, fun _ _ _ => rfl⟩
theorem decode_err {bp : Profile} {s s1 : Stream} {e : Error} (hx : nextHeaderFromStream s = (.err e, s1)) (c : Connection) :
    seenOf (decodeNextPacket bp c s).1 = .panic := by
  unfold decodeNextPacket
  rw [Rd.bind_ok (Rd.cloned_apply _), Rd.bind_apply, Rd.lift_apply, hx]
  rfl
theorem refusal_ne (bp : Profile) (L R l : Nat) : refusal bp L R l ≠ .ok := by
  unfold refusal
  split
  · cases bp <;> exact nofun
  · split
    · exact nofun
    · split <;> exact nofun

/-- Nothing but the packets of `decode_cut` shows any difference. -/
theorem decode_same {P P' : Prims} (hP : PrimLaws P) (hP' : PrimLaws P') {bp : Profile} {c c' : Connection} {f f' : PnSpace → Option Keys} (hc : Holds P c f) (hc' : Holds P' c' f')
    (hff : ∀ sp, (f sp).isSome = (f' sp).isSome) {data : Bytes} (hf : Forged P f data)
    (hf' : Forged P' f' data)
    (hn : ∀ sp b L body k k', Cut data sp b L body → 16 ≤ body.length → f sp = some k → f' sp = some k' → False) :
    seenOf (decodeNextPacket bp c (makeResultStream data)).1 = seenOf (decodeNextPacket bp c' (makeResultStream data)).1 := by
  rcases hx : nextHeaderFromStream (makeResultStream data) with ⟨o, s1⟩
  cases o with
  | panic w =>
    have := nextHeader_noPanic (makeResultStream data)
    rw [hx] at this; cases this
  | err e => rw [decode_err hx, decode_err hx]
  | ok x =>
    cases x with
    | short x =>
      obtain ⟨g, -, h⟩ := short_fate (bp := bp) hx
      rw [h hP hc hf, h hP' hc' hf', hff]
    | long x =>
      rcases kindIn_dec (packetKind x.headerByte x.version) with ⟨sp, hki⟩ | ⟨-, h⟩
      · rcases long_fate (bp := bp) hx hki with ⟨b, L, body, h1, h2, h3⟩ | ⟨g, -, h⟩
        · cases hk : f sp with
          | none =>
            have hk' : f' sp = none := by
              have := hff sp
              rw [hk] at this
              cases h' : f' sp with
              | none => rfl
              | some k' => rw [h'] at this; cases this
            rw [h3 hP hc hk, h3 hP' hc' hk']
          | some k =>
            obtain ⟨k', hk'⟩ := Option.isSome_iff_exists.mp ((hff sp).symm.trans (by rw [hk]; rfl))
            exact (hn sp b L body k k' h1 h2 hk hk').elim
        · rw [h hP hc, h hP' hc', hff]
      · rw [decodeNext_long hx, decodeNext_long hx, h bp c c']

/-- A forged packet is refused, or it is Version Negotiation, which takes the whole datagram. -/
theorem forged_ok {P : Prims} (hP : PrimLaws P) {bp : Profile} {c : Connection} {f : PnSpace → Option Keys} (hc : Holds P c f) {data : Bytes} (hs : data.length < 2 ^ 64)
    (hf : Forged P f data) {p : Packet} {s' : Stream} (h : decodeNextPacket bp c (makeResultStream data) = (.ok p, s')) : s' = [] := by
  have hok : seenOf (decodeNextPacket bp c (makeResultStream data)).1 = .ok := by rw [h]; rfl
  obtain ⟨x, s1, hx⟩ := decodeNext_header h
  cases x with
  | short x =>
    obtain ⟨g, hg, e⟩ := short_fate (bp := bp) hx
    exact absurd ((e hP hc hf).symm.trans hok) (hg _)
  | long x =>
    rcases kindIn_dec (packetKind x.headerByte x.version) with ⟨sp, hki⟩ | ⟨⟨n1, n2, n3⟩, -⟩
    · exfalso
      rcases long_fate (bp := bp) hx hki with ⟨b, L, body, h1, h2, h3⟩ | ⟨g, hg, e⟩
      · cases hk : f sp with
        | none => rw [h3 hP hc hk] at hok; cases hok
        | some k => exact absurd ((decode_cut hP hc hs h1 h2 hk hf).symm.trans hok) (refusal_ne _ _ _ _)
      · exact absurd ((e hP hc).symm.trans hok) (hg _)
    · rw [decodeNext_long hx] at h
      cases hk : packetKind x.headerByte x.version with
      | versionNegotiation =>
        rw [hk] at h
        obtain ⟨v, s2, h1, h⟩ := Rd.bind_eq_ok h
        cases h
        unfold PacketVersionNegotiation.fromStream at h1
        obtain ⟨_, s3, _, h1⟩ := Rd.bind_eq_ok h1
        obtain ⟨_, s4, _, h1⟩ := Rd.bind_eq_ok h1
        obtain ⟨_, s5, h2, h1⟩ := Rd.bind_eq_ok h1
        obtain ⟨_, rfl⟩ := allBytes_ok h2
        split at h1
        · cases h1
        · obtain ⟨_, s6, h3, h1⟩ := Rd.bind_eq_ok h1
          cases h1
          rw [Rd.lift_apply] at h3
          exact ((Prod.mk.inj h3).2).symm
      | retry => rw [hk] at h; cases h
      | oneRtt => rw [hk] at h; cases h
      | statelessReset => rw [hk] at h; cases h
      | initial => exact absurd hk n1
      | handshake => exact absurd hk n2
      | zeroRtt => exact absurd hk n3

/-- With a forged packet the datagram ends. -/
theorem datagram_seen {P : Prims} (hP : PrimLaws P) {bp : Profile} {c : Connection} {f : PnSpace → Option Keys} (hc : Holds P c f) {data : Bytes} (hs : data.length < 2 ^ 64)
    (hf : Forged P f data) :
    seenOf (decodePackets bp c (makeResultStream data)).1 = if data = [] then .ok else seenOf (decodeNextPacket bp c (makeResultStream data)).1 := by
  by_cases h0 : data = []
  · rw [if_pos h0, h0]; rfl
  · rw [if_neg h0, decodePackets_eq _ _ _ (by cases data with | nil => exact absurd rfl h0 | cons => exact nofun), Rd.bind_apply]
    rcases hd : decodeNextPacket bp c (makeResultStream data) with ⟨o, s'⟩
    cases o with
    | err e => rfl
    | panic e => rfl
    | ok p =>
      have := forged_ok hP hc hs hf hd
      subst this
      rfl

theorem cut_ne_nil {data : Bytes} {sp : PnSpace} {b : U8} {L : Nat} {body : Bytes} (h : Cut data sp b L body) : data ≠ [] := by
  obtain ⟨mid, pn, x, hb, tok, lb, -, -, -, -, -, -, -, -, e⟩ := h
  rw [e]
  exact nofun
theorem lengthUnder_range {P : Prims} (hP : PrimLaws P) {k : Keys} (hk : KeyLens k) (b : U8) {body : Bytes} (h : 16 ≤ body.length) :
    1 ≤ lengthUnder P k b body ∧ lengthUnder P k b body ≤ 4 := by
  obtain ⟨m, hm⟩ := hpMask_noPanic hP hk.1 (s := body.take 16) (by rw [List.length_take]; omega)
  obtain ⟨r, hr⟩ := hpMask_ok.mp hm
  unfold lengthUnder
  rw [hr]
  dsimp only
  omega

/-- C117 as one would have it: what is seen when a datagram is refused that nobody with the keys made does not depend on the keys. -/
def C117For (P : Prims) : Prop :=
  ∀ (bp : Profile) (c c' : Connection) (f f' : PnSpace → Option Keys), Holds P c f → Holds P c' f' →
    (∀ sp, (f sp).isSome = (f' sp).isSome) → ∀ data : Bytes, data.length < 2 ^ 64 →
    Forged P f data → Forged P f' data →
    seenOf (decodePackets bp c (makeResultStream data)).1 = seenOf (decodePackets bp c' (makeResultStream data)).1
/-- The claim, for all algorithms that obey the laws. -/
def C117Statement : Prop := ∀ P, PrimLaws P → C117For P

section
variable {P : Prims} (hP : PrimLaws P) (bp : Profile) {c c' : Connection} {f f' : PnSpace → Option Keys} (hc : Holds P c f) (hc' : Holds P c' f')
  (hff : ∀ sp, (f sp).isSome = (f' sp).isSome) (data : Bytes) (hs : data.length < 2 ^ 64)
  (hf : Forged P f data) (hf' : Forged P f' data)
include hP hc hs hf

/-- What is seen when a forged packet with a Length field is refused: it depends on the keys through the packet number length, which header protection hides. -/
theorem C117_refusal {sp : PnSpace} {b : U8} {L : Nat} {body : Bytes} (h : Cut data sp b L body) (h16 : 16 ≤ body.length) {k : Keys} (hk : f sp = some k) :
    seenOf (decodePackets bp c (makeResultStream data)).1 = refusal bp L body.length (lengthUnder P k b body) := by
  rw [datagram_seen hP hc hs hf, if_neg (cut_ne_nil h), decode_cut hP hc hs h h16 hk hf]

/-- The oracle: with a Length that is one to four more than what follows the four bytes at the place of the packet number, the error says whether the packet number
would be shorter than that. Three such datagrams give the packet number length, and with it two bits of the mask. -/
theorem C117_oracle {sp : PnSpace} {b : U8} {j : Nat} {body : Bytes} (h1 : 1 ≤ j) (h4 : j ≤ 4) (h : Cut data sp b (body.length + j) body) (h19 : 19 ≤ body.length)
    {k : Keys} (hk : f sp = some k) :
    seenOf (decodePackets bp c (makeResultStream data)).1 = if lengthUnder P k b body < j then .err notEnough else .err notOpened := by
  rw [C117_refusal hP bp hc data hs hf h (by omega) hk]
  have := lengthUnder_range hP ((hc sp).2.2 k hk) b (body := body) (by omega)
  unfold refusal
  rw [if_neg (by omega)]
  by_cases g : lengthUnder P k b body < j
  · rw [if_pos (by omega), if_pos g]
  · rw [if_neg (by omega), if_neg (by omega), if_neg g]

include hc' hf' hff

/-- When the refusal does not tell two sets of keys apart. -/
theorem C117_exact : seenOf (decodePackets bp c (makeResultStream data)).1 = seenOf (decodePackets bp c' (makeResultStream data)).1 ↔
    ∀ sp b L body k k', Cut data sp b L body → 16 ≤ body.length → f sp = some k → f' sp = some k' →
      refusal bp L body.length (lengthUnder P k b body) = refusal bp L body.length (lengthUnder P k' b body) := by
  constructor
  · intro h sp b L body k k' h1 h2 h3 h4
    rw [← C117_refusal hP bp hc data hs hf h1 h2 h3, ← C117_refusal hP bp hc' data hs hf' h1 h2 h4, h]
  · intro h
    by_cases hn : ∃ sp b L body k k', Cut data sp b L body ∧ 16 ≤ body.length ∧ f sp = some k ∧ f' sp = some k'
    · obtain ⟨sp, b, L, body, k, k', h1, h2, h3, h4⟩ := hn
      rw [C117_refusal hP bp hc data hs hf h1 h2 h3, C117_refusal hP bp hc' data hs hf' h1 h2 h4, h sp b L body k k' h1 h2 h3 h4]
    · rw [datagram_seen hP hc hs hf, datagram_seen hP hc' hs hf', decode_same hP hP hc hc' hff hf hf' fun sp b L body k k' h1 h2 h3 h4 =>
        hn ⟨sp, b, L, body, k, k', h1, h2, h3, h4⟩]

/-- Packets with a short header are refused in the same way under all keys.
Missing for the full statement: long headers, for which it is false (`C117_oracle`) but for those of `C117_covered_partial`. -/
theorem C117_short_partial (h : ∀ b, data.head? = some b → b.toNat < 128) :
    seenOf (decodePackets bp c (makeResultStream data)).1 = seenOf (decodePackets bp c' (makeResultStream data)).1 := by
  refine (C117_exact hP bp hc hc' hff data hs hf hf').mpr fun sp b L body k k' h1 => ?_
  obtain ⟨mid, pn, x, hb, tok, lb, rfl, h128, -, -, -, -, -, -, rfl⟩ := h1
  have := h x.headerByte rfl
  omega

/-- Long packets are, if the ciphertext is at least a tag and three bytes follow it, or more.
Missing for the full statement: all others, for which it is false (`C117_oracle`). -/
theorem C117_covered_partial (h : ∀ sp b L body, Cut data sp b L body → 20 ≤ L ∧ L ≤ body.length + 1) :
    seenOf (decodePackets bp c (makeResultStream data)).1 = seenOf (decodePackets bp c' (makeResultStream data)).1 := by
  refine (C117_exact hP bp hc hc' hff data hs hf hf').mpr fun sp b L body k k' h1 h2 h3 h4 => ?_
  have g := lengthUnder_range hP ((hc sp).2.2 k h3) b h2
  have g' := lengthUnder_range hP ((hc' sp).2.2 k' h4) b h2
  have := h sp b L body h1
  unfold refusal
  rw [if_neg (by omega), if_neg (by omega), if_neg (by omega), if_neg (by omega), if_neg (by omega), if_neg (by omega)]
end

/-- The packet number length and two bits of the mask determine one another. -/
theorem C117_mask_bits (P : Prims) (k k' : Keys) (b : U8) (body : Bytes) (m0 m0' : U8) (r r' : Bytes)
    (h : P.aesEcb k.hp (body.take 16) = some (m0 :: r)) (h' : P.aesEcb k'.hp (body.take 16) = some (m0' :: r')) :
    lengthUnder P k b body = lengthUnder P k' b body ↔ m0.toNat % 4 = m0'.toNat % 4 := by
  have key : ∀ b m : U8, (b ^^^ (m &&& 0x0f)).toNat % 4 = (b.toNat % 4) ^^^ (m.toNat % 4) := by
    intro b m
    have e : ∀ x : U8, x.toNat % 4 = (x &&& 3).toNat := by decide +kernel
    rw [e, e, e, ← BitVec.toNat_xor]
    have d : ∀ x y z : U8, (x ^^^ y) &&& z = (x &&& z) ^^^ (y &&& z) := by
      intro x y z; ext i; simp [Bool.and_xor_distrib_right]
    rw [d, BitVec.and_assoc, show (0x0f : U8) &&& 3 = 3 by decide]
  have inj : ∀ a x y : Nat, a ^^^ x = a ^^^ y → x = y := by
    intro a x y e
    have := congrArg (a ^^^ ·) e
    simpa [← Nat.xor_assoc] using this
  unfold lengthUnder
  rw [h, h']
  dsimp only
  rw [key, key]
  constructor
  · intro e; exact inj _ _ _ (Nat.add_right_cancel e)
  · intro e; rw [e]

/-! ### The witness -/

/-- Connections made through the API hold Initial keys. -/
theorem reachable_holds {P : Prims} (hP : PrimLaws P) {bp : Profile} {c : Connection} (h : Connection.Reachable P bp c) :
    ∃ k, KeyLens k ∧ Holds P c fun sp => if sp = .initial then some k else none := by
  obtain ⟨⟨kl, kr, -, h2, -, h4⟩, hn⟩ := reachable_keys hP h
  refine ⟨kr, h2, fun sp => ⟨?_, (reachable_acks h sp).2, fun k hk => ?_⟩⟩
  · by_cases hsp : sp = .initial
    · subst hsp
      unfold Connection.remoteSecrets at h4
      cases e : (c.pnInfo .initial).remoteTlsSecrets with
      | none => rw [e] at h4; cases h4
      | some t => rw [e] at h4; cases h4; rfl
    · obtain ⟨-, e, he⟩ := hn sp hsp
      dsimp only
      rw [if_neg hsp]
      unfold Connection.remoteSecrets at he
      cases e : (c.pnInfo sp).remoteTlsSecrets with
      | none => rfl
      | some t => rw [e] at he; cases he
  · dsimp only at hk
    split at hk
    · cases hk; exact h2
    · cases hk

/-- Under the toy instance a tag starts with thirteen equal bytes. -/
theorem toy_forged {data : Bytes} (h : ∀ x : U8, ¬ List.replicate 13 x <:+: data) (f : PnSpace → Option Keys) : Forged toy f data := by
  have key : ∀ {k nonce ad ct tag}, ct ++ tag <:+: data → toy.gcmOpen k nonce ad ct tag = none := by
    intro k nonce ad ct tag hp
    show (if tag = List.replicate 13 (xorAll nonce) ++ _ then some _ else none) = none
    rw [if_neg]
    rintro rfl
    refine h (xorAll nonce) (List.IsInfix.trans ?_ hp)
    exact ⟨ct, [xorAll ad, xorAll (ct.map (· ^^^ xorAll k)), xorAll k], by simp⟩
  constructor
  · intro sp k b mid L pn body d _ hcut hd _ m0 m1 m2 m3 m4 r plain num nb ct tag _ _ _ _ _ e _
    obtain ⟨x, hb, tok, lb, -, -, -, -, -, -, -, -, rfl⟩ := hcut
    exact key (e ▸ hd.isInfix.trans ⟨b :: mid ++ pn, [], by simp⟩)
  · intro k b mid pn body _ _ _ _ e0 m0 m1 m2 m3 m4 r plain num nb ct tag _ _ _ _ _ e _
    subst e0
    exact key (e ▸ ⟨b :: mid ++ pn, [], by simp⟩)

/-- A second connection, its id differs from that of `exConn` in one bit. -/
def exConn' : Connection := match Connection.new Spec.toy true .v1 ⟨0, 0x0102030405060709⟩ 8 with
  | .ok c => c
  | _ => exConn
theorem exConn'_new : Connection.new Spec.toy true .v1 ⟨0, 0x0102030405060709⟩ 8 = .ok exConn' := by
  unfold exConn'
  cases h : Connection.new Spec.toy true .v1 ⟨0, 0x0102030405060709⟩ 8 with
  | ok c => rfl
  | err e => exact absurd (show _ = true from congrArg Out.isErr h) (by decide +kernel)
  | panic e => exact absurd (show _ = true from congrArg Out.isPanic h) (by decide +kernel)

/-- An Initial packet with 20 bytes after the packet number. -/
def probe (L : U8) : Bytes :=
  [0xc0, 0, 0, 0, 1, 8, 1, 2, 3, 4, 5, 6, 7, 8, 0, 0, L, 1, 2, 3, 4] ++ [0, 40, 41, 42, 43, 44, 45, 46, 47, 48, 49, 50, 51, 52, 53, 54, 55, 56, 57, 58]
theorem probe_forged (f : PnSpace → Option Keys) : Forged toy f (probe 22) := toy_forged (by decide +kernel) f

theorem C117_false : ¬ C117Statement := by
  intro h
  obtain ⟨k, -, hc⟩ := reachable_holds toy_laws (bp := .release) ⟨true, .v1, _, 8, exConn, [], exConn_new, rfl⟩
  obtain ⟨k', -, hc'⟩ := reachable_holds toy_laws (bp := .release) ⟨true, .v1, _, 8, exConn', [], exConn'_new, rfl⟩
  have := h toy toy_laws .release _ _ _ _ hc hc' (fun sp => by split <;> rfl) (probe 22) (by decide) (probe_forged _) (probe_forged _)
  exact absurd this (by decide +kernel)

/-- The hypotheses of `C117_oracle` and `C117_refusal` are met. -/
theorem probe_cut : Cut (probe 22) .initial 0xc0 22 [0, 40, 41, 42, 43, 44, 45, 46, 47, 48, 49, 50, 51, 52, 53, 54, 55, 56, 57, 58] := by
  refine ⟨[0, 0, 0, 1, 8, 1, 2, 3, 4, 5, 6, 7, 8, 0, 0, 22], [1, 2, 3, 4], ⟨0xc0, 1, 8, ⟨0, 0x0102030405060708⟩, 0, ⟨0, 0⟩, none, true⟩,
    [0, 0, 0, 1, 8, 1, 2, 3, 4, 5, 6, 7, 8, 0], [0], [22], rfl, by decide, ?_, .inl ⟨rfl, rfl⟩, ⟨[0], [], rfl, 0, by decide⟩, ⟨0, by decide⟩, rfl, rfl, rfl⟩
  exact ⟨[0, 0, 0, 1], [1, 2, 3, 4, 5, 6, 7, 8], [], by decide +kernel⟩
example : ∃ k, seenOf (decodePackets .debug exConn (makeResultStream (probe 22))).1 =
    if lengthUnder toy k 0xc0 [0, 40, 41, 42, 43, 44, 45, 46, 47, 48, 49, 50, 51, 52, 53, 54, 55, 56, 57, 58] < 2 then .err notEnough else .err notOpened := by
  obtain ⟨k, -, hc⟩ := reachable_holds toy_laws (bp := .debug) ⟨true, .v1, _, 8, exConn, [], exConn_new, rfl⟩
  exact ⟨k, C117_oracle toy_laws .debug hc (probe 22) (by decide) (probe_forged _) (j := 2) (by decide) (by decide) probe_cut (by decide) rfl⟩

end QuicSea
