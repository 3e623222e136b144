import Verif.Model.Crypto
/-
Model of src/connection.rs.
-/
namespace QuicSea

/-- src/connection.rs:6-11. -/
inductive PnSpace where
  | initial
  | handshake
  | application
deriving DecidableEq, Repr

/-- src/connection.rs:13-20. -/
structure PnInfo where
  largestRemoteAck : Option U64
  largestLocalAck : Option U64
  nextPn : U64
  localTlsSecrets : Option Secrets
  remoteTlsSecrets : Option Secrets

/-- src/connection.rs:22-32. -/
def PnInfo.new : PnInfo :=
  { largestRemoteAck := none, largestLocalAck := none, nextPn := 0,
    localTlsSecrets := none, remoteTlsSecrets := none }

/-- src/connection.rs:34-56 `truncate_pn`. -/
def truncatePn (pn : U64) (largestAck : Option U64) : Out Bytes :=
  match largestAck with
  | none =>
    if pn.toNat > 0xffffffff then .err (.internalError "too few bytes to encode truncated packet number")
    else .ok (toBeBytes 4 (pn.setWidth 32))
  | some x =>
    if pn ≤ x then
      .err (.internalError "Cannot truncate packet number smaller than largest acknowledged packet number")
    else do
      let diff := pn - x
      let bitLen ← floorLog2 diff
      let byteLen := bitLen / 8 + (if bitLen % 8 = 0 then 0 else 1)
      sliceFrom (toBeBytes 8 pn) (8 - byteLen)

/-- src/connection.rs:58-70. `usize` lengths are `Nat`. -/
structure Connection where
  version : Version
  initialPnInfo : PnInfo
  handshakePnInfo : PnInfo
  applicationPnInfo : PnInfo
  dcid : U160 × Nat
  scid : Option (U160 × Nat)

/-- src/connection.rs:73-99 `Connection::new`. -/
def Connection.new (P : Prims) (isServer : Bool) (version : Version) (dcid : U160) (dcidLen : Nat) : Out Connection := do
  let cidBytes ← dcid.toVarBytes dcidLen
  let serverSecrets ← Secrets.fromInitial P true cidBytes version
  let cidBytes' ← dcid.toVarBytes dcidLen
  let clientSecrets ← Secrets.fromInitial P false cidBytes' version
  let (localSecrets, remoteSecrets) :=
    if isServer then (serverSecrets, clientSecrets) else (clientSecrets, serverSecrets)
  pure {
    version
    initialPnInfo := { PnInfo.new with localTlsSecrets := some localSecrets, remoteTlsSecrets := some remoteSecrets }
    handshakePnInfo := PnInfo.new
    applicationPnInfo := PnInfo.new
    dcid := (dcid, dcidLen)
    scid := none }

/-- src/connection.rs:101-107 `borrow_pn_info`. -/
def Connection.pnInfo (c : Connection) : PnSpace → PnInfo
  | .initial => c.initialPnInfo
  | .handshake => c.handshakePnInfo
  | .application => c.applicationPnInfo

/-- src/connection.rs:109-115 `borrow_mut_pn_info`, as a functional update. -/
def Connection.setPnInfo (c : Connection) (sp : PnSpace) (i : PnInfo) : Connection :=
  match sp with
  | .initial => { c with initialPnInfo := i }
  | .handshake => { c with handshakePnInfo := i }
  | .application => { c with applicationPnInfo := i }

/-- src/connection.rs:117-122. -/
def Connection.localSecrets (c : Connection) (sp : PnSpace) : Out Secrets :=
  match (c.pnInfo sp).localTlsSecrets with
  | some s => .ok s
  | none => .err (.internalError "attempted to retrieve unset local tls secrets")

/-- src/connection.rs:124-129. -/
def Connection.remoteSecrets (c : Connection) (sp : PnSpace) : Out Secrets :=
  match (c.pnInfo sp).remoteTlsSecrets with
  | some s => .ok s
  | none => .err (.internalError "attempted to retrieve unset remote tls secrets")

/-- src/connection.rs:131-133. -/
def Connection.setScid (c : Connection) (scid : U160) (scidLen : Nat) : Connection :=
  { c with scid := some (scid, scidLen) }

/-- src/connection.rs:135-138: `(a, b as u8)`. -/
def Connection.getDcid (c : Connection) : U160 × U8 := (c.dcid.1, BitVec.ofNat 8 c.dcid.2)

/-- src/connection.rs:140-143. -/
def Connection.getScid (c : Connection) : Out (U160 × U8) :=
  match c.scid with
  | some (a, b) => .ok (a, BitVec.ofNat 8 b)
  | none => .err (.internalError "scid not set")

/-- src/connection.rs:145-155. -/
def Connection.getLocalHpMask (c : Connection) (sp : PnSpace) : Rd Mask := do
  let s ← Rd.lift (c.localSecrets sp)
  s.getHeaderProtectionMask

/-- src/connection.rs:157-167. -/
def Connection.getRemoteHpMask (c : Connection) (sp : PnSpace) : Rd Mask := do
  let s ← Rd.lift (c.remoteSecrets sp)
  s.getHeaderProtectionMask

/-- src/connection.rs:169-179. -/
def Connection.decryptRemotePayload (c : Connection) (sp : PnSpace) (payload ad : Bytes) (pn : U64) : Out Bytes := do
  let s ← c.remoteSecrets sp
  s.decryptPayload payload (some ad) pn

/-- src/connection.rs:180-190. -/
def Connection.encryptLocalPayload (c : Connection) (sp : PnSpace) (payload ad : Bytes) (pn : U64) : Out Bytes := do
  let s ← c.localSecrets sp
  s.encryptPayload payload (some ad) pn

/-- src/connection.rs:191-220 `reconstruct_remote_pn`. `la_bytes` takes the *first* four big-endian bytes of the largest
acknowledged number, and shifts are by `pn_length` bits, as in the source. `<<` drops bits shifted out in both
profiles. -/
def Connection.reconstructRemotePn (bp : Profile) (c : Connection) (sp : PnSpace) (pnLsb : Bytes) : Out U64 :=
  let pnLength := pnLsb.length
  if ¬ pnLength ≤ 4 then .panic "assertion failed: pn_length <= 4"
  else
    let largestAck := (c.pnInfo sp).largestRemoteAck
    let tpPn : U32 := fromBeBytes 32 (List.replicate (4 - pnLength) 0 ++ pnLsb)
    match largestAck with
    | some x =>
      let tpLa : U32 := fromBeBytes 32 ((toBeBytes 8 x).take 4)
      if tpPn > tpLa then
        addU64 bp ((x >>> pnLength) <<< pnLength) (tpPn.setWidth 64)
      else do
        let t ← addU64 bp (x >>> pnLength) 1
        addU64 bp (t <<< pnLength) (tpPn.setWidth 64)
    | none => .ok (tpPn.setWidth 64)

/-- src/connection.rs:222-229. -/
def Connection.getLocalProtectedPayloadLen (c : Connection) (sp : PnSpace) (payloadLen : Nat) : Out Nat := do
  let s ← c.localSecrets sp
  pure (s.getProtectedPayloadLen payloadLen)

/-- src/connection.rs:232-243 `get_next_pn(&mut self)`: the outcome and the connection afterwards. The counter is
incremented before the fallible truncation and stays incremented if that fails. -/
def Connection.getNextPn (bp : Profile) (c : Connection) (sp : PnSpace) : Out (U64 × Bytes) × Connection :=
  let pnInfo := c.pnInfo sp
  match addU64 bp pnInfo.nextPn 1 with
  | .ok nextPn =>
    let pnInfo := { pnInfo with nextPn }
    let c := c.setPnInfo sp pnInfo
    (do
      let t ← truncatePn nextPn pnInfo.largestLocalAck
      pure (nextPn, t), c)
  | .err e => (.err e, c)
  | .panic w => (.panic w, c)

/-- src/connection.rs:245-247. -/
def Connection.getVersionField (c : Connection) : U32 := c.version.getVersionFieldVal

end QuicSea
