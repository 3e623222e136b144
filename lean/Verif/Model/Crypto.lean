import Verif.Model.Utils
/-
Model of src/version.rs, src/quictls/cipher_suite.rs, src/quictls/secrets.rs.
-/
namespace QuicSea

/-- src/version.rs:6-9. -/
inductive Version where
  | v1
deriving DecidableEq, Repr

/-- src/version.rs:3-4. -/
def KDF_INITIAL_SALT_V1 : Bytes :=
  [0x38,0x76,0x2c,0xf7,0xf5,0x59,0x34,0xb3,0x4d,0x17,0x9a,0xe6,0xa4,0xc8,0x0c,0xad,0xcc,0xbb,0x7f,0x0a]

/-- src/version.rs:12-16. -/
def Version.getKdfInitialSalt : Version → Bytes
  | .v1 => KDF_INITIAL_SALT_V1

/-- src/version.rs:17-21. -/
def Version.getVersionFieldVal : Version → U32
  | .v1 => 1

/-- External cryptographic libraries (crates `hkdf`, `sha2`, `openssl`, imported at src/quictls/cipher_suite.rs:2-4), as arbitrary functions. Nothing is assumed about
them here; theorems that need a law take it as a hypothesis. `none` is a library error. -/
structure Prims where
  /-- `Hkdf::<Sha256>::extract(salt, ikm).0` -/
  hkdfExtract : Option Bytes → Bytes → Bytes
  /-- does `Hkdf::<Sha256>::from_prk(secret)` succeed -/
  fromPrkOk : Bytes → Bool
  /-- `Hkdf::expand(info, output)` for a given PRK and output length -/
  hkdfExpand : Bytes → Bytes → Nat → Option Bytes
  /-- `openssl::symm::encrypt(Cipher::aes_128_ecb(), key, None, sample)` -/
  aesEcb : Bytes → Bytes → Option Bytes
  /-- `openssl::symm::encrypt_aead(aes_128_gcm, key, Some(iv), aad, payload, &mut tag)`: ciphertext and tag -/
  gcmSeal : Bytes → Bytes → Bytes → Bytes → Option (Bytes × Bytes)
  /-- `openssl::symm::decrypt_aead(aes_128_gcm, key, Some(iv), aad, ciphertext, tag)` -/
  gcmOpen : Bytes → Bytes → Bytes → Bytes → Bytes → Option Bytes

/-- A header protection mask, Rust `[u8; 5]` (src/quictls/cipher_suite.rs:99). -/
structure Mask where
  m0 : U8
  m1 : U8
  m2 : U8
  m3 : U8
  m4 : U8
deriving DecidableEq, Repr

/-- src/quictls/cipher_suite.rs:7-22. Function pointers are functions; the `&mut [u8]` output buffer of
`hkdf_expand_label` is a requested length and a returned byte string. -/
structure CipherSuite where
  sampleLen : Nat
  tagLen : Option Nat
  keyLen : Nat
  ivLen : Option Nat
  decrypt : Bytes → Option Bytes → Option Bytes → Bytes → Out Bytes
  encrypt : Bytes → Option Bytes → Option Bytes → Bytes → Out Bytes
  hpMask : Bytes → Bytes → Out Mask
  hkdfExpandLabel : Bytes → Bytes → Bytes → Nat → Out Bytes
  hkdfExtract : Option Bytes → Bytes → Bytes

/-- src/quictls/cipher_suite.rs:32-36. -/
def CipherSuite.getKey (c : CipherSuite) (secret keyLabel : Bytes) : Out Bytes :=
  c.hkdfExpandLabel secret keyLabel [] c.keyLen

/-- src/quictls/cipher_suite.rs:37-41. -/
def CipherSuite.getHpSecret (c : CipherSuite) (secret hpLabel : Bytes) : Out Bytes :=
  c.hkdfExpandLabel secret hpLabel [] 16

/-- src/quictls/cipher_suite.rs:42-51. -/
def CipherSuite.getIvSecret (c : CipherSuite) (secret ivLabel : Bytes) : Out (Option Bytes) :=
  match c.ivLen with
  | some x => do
    let rv ← c.hkdfExpandLabel secret ivLabel [] x
    pure (some rv)
  | none => pure none

/-- src/quictls/cipher_suite.rs:52-54. -/
def CipherSuite.getProtectedPayloadLen (c : CipherSuite) (payloadLen : Nat) : Nat :=
  c.tagLen.getD 0 + payloadLen

/-- The ASCII bytes of `b"tls13 "` (src/quictls/cipher_suite.rs:64). -/
def TLS13_PREFIX : Bytes := [0x74, 0x6c, 0x73, 0x31, 0x33, 0x20]

/-- src/quictls/cipher_suite.rs:57-79 `get_hkdf_label_info`. -/
def getHkdfLabelInfo (length : Nat) (label context : Bytes) : Out (List Bytes) :=
  if length > 65535 then .err (.internalError "length does not fit in u16")
  else if context.length > 255 then .err (.internalError "context length does not fit in u8")
  else
    let newLabel := TLS13_PREFIX ++ label
    if newLabel.length > 255 then .err (.internalError "label length does not fit in u8")
    else .ok [toBeBytes 2 (BitVec.ofNat 16 length), toBeBytes 1 (BitVec.ofNat 8 newLabel.length), newLabel,
      toBeBytes 1 (BitVec.ofNat 8 context.length), context]

/-- src/quictls/cipher_suite.rs:81-84. -/
def hkdfExtractSha256 (P : Prims) (salt : Option Bytes) (ikm : Bytes) : Bytes := P.hkdfExtract salt ikm

/-- src/quictls/cipher_suite.rs:86-97. -/
def hkdfExpandLabelSha256 (P : Prims) (secret label context : Bytes) (outputLen : Nat) : Out Bytes :=
  if P.fromPrkOk secret then do
    let info ← getHkdfLabelInfo outputLen label context
    match P.hkdfExpand secret info.flatten outputLen with
    | some o => .ok o
    | none => .err (.internalError "error expanding label")
  else .err (.internalError "error creating kdf object")

/-- src/quictls/cipher_suite.rs:99-108 `hp_mask`, `hp_mask_aes_128_ecb`: `encrypt(..).unwrap()` and `&result[..5]`. -/
def hpMaskAes128Ecb (P : Prims) (key sample : Bytes) : Out Mask :=
  match P.aesEcb key sample with
  | none => .panic "called `Result::unwrap()` on an `Err` value"
  | some (a :: b :: c :: d :: e :: _) => .ok ⟨a, b, c, d, e⟩
  | some _ => .panic "range end index 5 out of range"

/-- src/quictls/cipher_suite.rs:110. -/
def AES_128_GCM_SAMPLE_LEN : Nat := 16
/-- src/quictls/cipher_suite.rs:111. -/
def AES_128_GCM_TAG_LEN : Nat := 16
/-- src/quictls/cipher_suite.rs:112. -/
def AES_128_KEY_LEN : Nat := 16
/-- src/quictls/cipher_suite.rs:113. -/
def AES_128_IV_LEN : Nat := 12

/-- src/quictls/cipher_suite.rs:115-132. -/
def internalEncryptAes128Gcm (P : Prims) (key iv ad payload : Bytes) : Out Bytes :=
  match P.gcmSeal key iv ad payload with
  | none => .err (.internalError "error in aes_128_gcm encryption")
  | some (cipherText, tag) => .ok (cipherText ++ tag)

/-- src/quictls/cipher_suite.rs:134-146. -/
def encryptAes128Gcm (P : Prims) (key : Bytes) (iv ad : Option Bytes) (payload : Bytes) : Out Bytes :=
  match iv with
  | none => .err (.internalError "aes_128_gcm requires an initialsation vector")
  | some iv =>
    match ad with
    | none => .err (.internalError "aes_128_gcm requires associated data")
    | some ad => internalEncryptAes128Gcm P key iv ad payload

/-- src/quictls/cipher_suite.rs:148-165. `payload.len() - 16` underflows for a payload shorter than the tag: a panic in
debug (subtraction) and in release (the wrapped index is out of range for the slice). -/
def internalDecryptAes128Gcm (P : Prims) (key iv ad payload : Bytes) : Out Bytes :=
  if payload.length < AES_128_GCM_TAG_LEN then .panic "attempt to subtract with overflow / slice index out of range"
  else
    let tag := payload.drop (payload.length - AES_128_GCM_TAG_LEN)
    let cipherText := payload.take (payload.length - 16)
    match P.gcmOpen key iv ad cipherText tag with
    | some p => .ok p
    | none => .err (.internalError "error in aes_128_gcm decryption")

/-- src/quictls/cipher_suite.rs:167-179. -/
def decryptAes128Gcm (P : Prims) (key : Bytes) (iv ad : Option Bytes) (payload : Bytes) : Out Bytes :=
  match iv with
  | none => .err (.internalError "aes_128_gcm requires an initialsation vector")
  | some iv =>
    match ad with
    | none => .err (.internalError "aes_128_gcm requires associated data")
    | some ad => internalDecryptAes128Gcm P key iv ad payload

/-- src/quictls/cipher_suite.rs:181-191 `TLS13_AES_128_GCM_SHA256`. -/
def TLS13_AES_128_GCM_SHA256 (P : Prims) : CipherSuite where
  sampleLen := AES_128_GCM_SAMPLE_LEN
  tagLen := some AES_128_GCM_TAG_LEN
  keyLen := AES_128_KEY_LEN
  ivLen := some AES_128_IV_LEN
  hpMask := hpMaskAes128Ecb P
  hkdfExpandLabel := hkdfExpandLabelSha256 P
  hkdfExtract := hkdfExtractSha256 P
  encrypt := encryptAes128Gcm P
  decrypt := decryptAes128Gcm P

/-! ### secrets.rs -/

/-- src/quictls/secrets.rs:6, `b"server in"`. -/
def SERVER_INITIAL_SECRET_LABEL : Bytes := [0x73,0x65,0x72,0x76,0x65,0x72,0x20,0x69,0x6e]
/-- src/quictls/secrets.rs:7, `b"client in"`. -/
def CLIENT_INITIAL_SECRET_LABEL : Bytes := [0x63,0x6c,0x69,0x65,0x6e,0x74,0x20,0x69,0x6e]
/-- src/quictls/secrets.rs:8, `b"quic hp"`. -/
def HEADER_PROTECTION_LABEL : Bytes := [0x71,0x75,0x69,0x63,0x20,0x68,0x70]
/-- src/quictls/secrets.rs:9, `b"quic iv"`. -/
def INITIAL_VECTOR_LABEL : Bytes := [0x71,0x75,0x69,0x63,0x20,0x69,0x76]
/-- src/quictls/secrets.rs:10, `b"quic key"`. -/
def KEY_LABEL : Bytes := [0x71,0x75,0x69,0x63,0x20,0x6b,0x65,0x79]

/-- src/quictls/secrets.rs:12-18. -/
structure Secrets where
  cipherSuite : CipherSuite
  hp : Bytes
  iv : Option Bytes
  key : Bytes

/-- src/quictls/secrets.rs:34-47 `Secrets::from_secret`. -/
def Secrets.fromSecret (cipherSuite : CipherSuite) (secret : Bytes) : Out Secrets := do
  let hp ← cipherSuite.getHpSecret secret HEADER_PROTECTION_LABEL
  let iv ← cipherSuite.getIvSecret secret INITIAL_VECTOR_LABEL
  let key ← cipherSuite.getKey secret KEY_LABEL
  pure { cipherSuite, hp, iv, key }

/-- src/quictls/secrets.rs:21-33 `Secrets::from_initial`. -/
def Secrets.fromInitial (P : Prims) (server : Bool) (cidBytes : Bytes) (version : Version) : Out Secrets := do
  let cipherSuite := TLS13_AES_128_GCM_SHA256 P
  let initialSecret := cipherSuite.hkdfExtract (some version.getKdfInitialSalt) cidBytes
  let label := if server then SERVER_INITIAL_SECRET_LABEL else CLIENT_INITIAL_SECRET_LABEL
  let secret ← cipherSuite.hkdfExpandLabel initialSecret label [] 32
  Secrets.fromSecret cipherSuite secret

/-- Loop of src/quictls/secrets.rs:61-63 (and 83-85) on reversed arrays: for `i in 0..length`,
`iv[iv_len-i-1] ^= pn_bytes[pn_len-i-1]`; bytes beyond the shorter one are unchanged. -/
def xorBack : Bytes → Bytes → Bytes
  | [], _ => []
  | iv, [] => iv
  | a :: iv, b :: pn => (a ^^^ b) :: xorBack iv pn

/-- src/quictls/secrets.rs:55-67: the per-packet nonce. -/
def packetNonce (iv : Bytes) (packetNumber : U64) : Bytes :=
  (xorBack iv.reverse (toBeBytes 8 packetNumber).reverse).reverse

/-- src/quictls/secrets.rs:48-69 `Secrets::encrypt_payload`. -/
def Secrets.encryptPayload (s : Secrets) (payload : Bytes) (ad : Option Bytes) (packetNumber : U64) : Out Bytes :=
  let iv := s.iv.map fun x => packetNonce x packetNumber
  s.cipherSuite.encrypt s.key iv ad payload

/-- src/quictls/secrets.rs:70-91 `Secrets::decrypt_payload`. -/
def Secrets.decryptPayload (s : Secrets) (payload : Bytes) (ad : Option Bytes) (packetNumber : U64) : Out Bytes :=
  let iv := s.iv.map fun x => packetNonce x packetNumber
  s.cipherSuite.decrypt s.key iv ad payload

/-- src/quictls/secrets.rs:92-100 `Secrets::get_header_protection_mask`. -/
def Secrets.getHeaderProtectionMask (s : Secrets) : Rd Mask := do
  let sample ← varBytesFromStream s.cipherSuite.sampleLen
  Rd.lift (s.cipherSuite.hpMask s.hp sample)

/-- src/quictls/secrets.rs:101-103. -/
def Secrets.getProtectedPayloadLen (s : Secrets) (payloadLen : Nat) : Nat :=
  s.cipherSuite.getProtectedPayloadLen payloadLen

end QuicSea
