import Verif.Props.Derive
import Verif.Proofs.Build
/-
C125: the state of a connection, from its creation on.
-/
namespace Spec
open QuicSea

/-- The bytes of a connection id of `n` bytes: the number in big-endian order. -/
def IdBytes (d : U160) (n : Nat) (bs : Bytes) : Prop := bs.length = n ∧ beNat bs = cidVal d % 256 ^ n

/-- Everything that a connection for the id `d` of `n` bytes consists of but its packet number counters and its own id: in the Initial space the keys
of RFC 9001 section 5.2, its own to send and the other side's to receive; in the other spaces none; nothing acknowledged anywhere. -/
structure ConnFor (P : Prims) (server : Bool) (v : Version) (d : U160) (n : Nat) (c : Connection) : Prop where
  version : c.version = v
  dcid : c.dcid = (d, n)
  acks : ∀ sp, (c.pnInfo sp).largestLocalAck = none ∧ (c.pnInfo sp).largestRemoteAck = none
  initial : ∃ id kl kr, IdBytes d n id ∧ InitialKeys P server id kl ∧ InitialKeys P (!server) id kr ∧
    (c.pnInfo .initial).localTlsSecrets = some (secretsOf P kl) ∧ (c.pnInfo .initial).remoteTlsSecrets = some (secretsOf P kr)
  other : ∀ sp, sp ≠ .initial → (c.pnInfo sp).localTlsSecrets = none ∧ (c.pnInfo sp).remoteTlsSecrets = none

/-- The counter of a space after `n` packets: it wraps in a release build, and stops at its last value where overflow panics. -/
def counterAfter : Profile → Nat → Nat
  | .release, n => n % 2 ^ 64
  | .debug, n => min n (2 ^ 64 - 1)

/-- How many operations took a number of the space. -/
def taken (sp : PnSpace) : List ConnOp → Nat
  | [] => 0
  | .nextPn sp' :: ops => (if sp' = sp then 1 else 0) + taken sp ops
  | .buildInitial _ _ :: ops => (if sp = .initial then 1 else 0) + taken sp ops
  | .buildHandshake _ :: ops => (if sp = .handshake then 1 else 0) + taken sp ops
  | .setScid _ _ :: ops => taken sp ops

/-- The own id that was set last. -/
def lastId : Option (U160 × Nat) → List ConnOp → Option (U160 × Nat)
  | x, [] => x
  | _, .setScid d n :: ops => lastId (some (d, n)) ops
  | x, _ :: ops => lastId x ops

end Spec

namespace QuicSea
open Spec

theorem idBytes_unique {d : U160} {n : Nat} {a b : Bytes} (ha : IdBytes d n a) (hb : IdBytes d n b) : a = b :=
  beNat_inj (ha.1.trans hb.1.symm) (ha.2.trans hb.2.symm)

/-- A connection is its fields, its spaces and its two ids. -/
theorem conn_ext {a b : Connection} (hv : a.version = b.version) (hd : a.dcid = b.dcid) (hs : a.scid = b.scid) (hp : ∀ sp, a.pnInfo sp = b.pnInfo sp) : a = b := by
  have h1 := hp .initial
  have h2 := hp .handshake
  have h3 := hp .application
  cases a; cases b
  dsimp only [Connection.pnInfo] at hv hd hs h1 h2 h3
  subst hv hd hs h1 h2 h3
  rfl

/-- What is determined by the id is determined completely: two connections of one side for one id differ in counters and own id alone. -/
theorem connFor_unique {P : Prims} {server : Bool} {v : Version} {d : U160} {n : Nat} {a b : Connection} (ha : ConnFor P server v d n a)
    (hb : ConnFor P server v d n b) (hs : a.scid = b.scid) (hn : ∀ sp, (a.pnInfo sp).nextPn = (b.pnInfo sp).nextPn) : a = b := by
  refine conn_ext (ha.version.trans hb.version.symm) (ha.dcid.trans hb.dcid.symm) hs fun sp => ?_
  have e1 := ha.acks sp
  have e2 := hb.acks sp
  have e3 := hn sp
  have e4 : (a.pnInfo sp).localTlsSecrets = (b.pnInfo sp).localTlsSecrets ∧ (a.pnInfo sp).remoteTlsSecrets = (b.pnInfo sp).remoteTlsSecrets := by
    by_cases hsp : sp = .initial
    · subst hsp
      obtain ⟨i, kl, kr, x1, x2, x3, x4, x5⟩ := ha.initial
      obtain ⟨i', kl', kr', y1, y2, y3, y4, y5⟩ := hb.initial
      cases idBytes_unique x1 y1
      rw [x4, x5, y4, y5, initialKeys_unique x2 y2, initialKeys_unique x3 y3]
      exact ⟨rfl, rfl⟩
    · have p := ha.other sp hsp
      have q := hb.other sp hsp
      exact ⟨p.1.trans q.1.symm, p.2.trans q.2.symm⟩
  revert e1 e2 e3 e4
  cases a.pnInfo sp
  cases b.pnInfo sp
  rintro ⟨f1, f2⟩ ⟨g1, g2⟩ e3 ⟨f4, f5⟩
  simp only at f1 f2 g1 g2 e3 f4 f5
  subst f1 f2 g1 g2 e3 f4 f5
  rfl

/-- **C125.** `Connection::new` makes exactly the connection for the id, with all counters at 0 and without an id of its own, if the id has at most 20
bytes. -/
theorem C125_new (P : Prims) (hP : PrimLaws P) (server : Bool) (v : Version) (d : U160) (n : Nat) (c : Connection) :
    Connection.new P server v d n = .ok c ↔ n ≤ 20 ∧ ConnFor P server v d n c ∧ c.scid = none ∧ ∀ sp, (c.pnInfo sp).nextPn = 0 := by
  have fwd : ∀ c, Connection.new P server v d n = .ok c → n ≤ 20 ∧ ConnFor P server v d n c ∧ c.scid = none ∧ ∀ sp, (c.pnInfo sp).nextPn = 0 := by
    intro c h
    obtain ⟨cid, kl, kr, h1, h2, h3, rfl⟩ := new_ok' h
    have hn : n ≤ 20 := Nat.not_lt.mp fun hn => by
      have := (C08_cid_write_panics_iff d n).1.mpr hn
      rw [h1] at this
      cases this
    obtain ⟨bs, g1, g2, g3⟩ := toVarBytes_spec d n hn
    rw [h1] at g1
    cases g1
    exact ⟨hn, ⟨rfl, rfl, fun sp => by cases sp <;> exact ⟨rfl, rfl⟩, ⟨cid, kl, kr, ⟨g2, g3⟩, h2, h3, rfl, rfl⟩,
      fun sp hsp => by cases sp <;> first | exact absurd rfl hsp | exact ⟨rfl, rfl⟩⟩, rfl, fun sp => by cases sp <;> rfl⟩
  refine ⟨fwd c, fun ⟨hn, hc, hs, h0⟩ => ?_⟩
  obtain ⟨c', h⟩ := new_total P hP server v d n hn
  obtain ⟨_, hc', hs', h0'⟩ := fwd c' h
  rw [h, connFor_unique hc hc' (hs.trans hs'.symm) (fun sp => (h0 sp).trans (h0' sp).symm)]

/-- It is never an error, and a panic exactly for the ids of more than 20 bytes. -/
theorem C125_new_panics (P : Prims) (hP : PrimLaws P) (server : Bool) (v : Version) (d : U160) (n : Nat) :
    (Connection.new P server v d n).isErr = false ∧ ((Connection.new P server v d n).isPanic = true ↔ 20 < n) := by
  by_cases hn : n ≤ 20
  · obtain ⟨c, h⟩ := new_total P hP server v d n hn
    rw [h]
    exact ⟨rfl, nofun, fun h => absurd h (by omega)⟩
  · have := (C08_cid_write_panics_iff d n).1.mpr (by omega)
    unfold Connection.new
    cases h : d.toVarBytes n with
    | ok b => rw [h] at this; cases this
    | err e => rw [h] at this; cases this
    | panic w => exact ⟨rfl, fun _ => by omega, fun _ => rfl⟩

theorem getNextPn_state (bp : Profile) (c : Connection) (sp : PnSpace) :
    (c.getNextPn bp sp).2 = c ∧ bp = .debug ∧ (c.pnInfo sp).nextPn.toNat + 1 = 2 ^ 64 ∨
    (c.getNextPn bp sp).2 = c.setPnInfo sp { c.pnInfo sp with nextPn := (c.pnInfo sp).nextPn + 1 } ∧
      (bp = .release ∨ (c.pnInfo sp).nextPn.toNat + 1 < 2 ^ 64) := by
  have hlt := (c.pnInfo sp).nextPn.isLt
  unfold Connection.getNextPn
  dsimp only
  cases bp with
  | release => rw [addU64_release]; exact .inr ⟨rfl, .inl rfl⟩
  | debug =>
    unfold addU64
    have h1 : BitVec.toNat (1 : U64) = 1 := rfl
    by_cases h : (c.pnInfo sp).nextPn.toNat + 1 < 2 ^ 64
    · rw [if_pos (by rw [h1]; exact h)]; exact .inr ⟨rfl, .inr h⟩
    · rw [if_neg (by rw [h1]; exact h)]; exact .inl ⟨rfl, rfl, by omega⟩

/-- One number taken. -/
theorem getNextPn_counts {P : Prims} {server : Bool} {v : Version} {d : U160} {n : Nat} {c : Connection} (bp : Profile) (hc : ConnFor P server v d n c) (sp : PnSpace) (k : PnSpace → Nat)
    (hk : ∀ sp, (c.pnInfo sp).nextPn.toNat = counterAfter bp (k sp)) :
    ConnFor P server v d n (c.getNextPn bp sp).2 ∧ (c.getNextPn bp sp).2.scid = c.scid ∧
    ∀ sp', ((c.getNextPn bp sp).2.pnInfo sp').nextPn.toNat = counterAfter bp (k sp' + if sp = sp' then 1 else 0) := by
  rcases getNextPn_state bp c sp with ⟨e, rfl, hm⟩ | ⟨e, hb⟩
  · rw [e]
    refine ⟨hc, rfl, fun sp' => ?_⟩
    rw [hk sp']
    split
    · rename_i h
      subst h
      rw [hk sp] at hm
      simp only [counterAfter] at hm ⊢
      omega
    · rfl
  · rw [e]
    obtain ⟨g1, g2, g3⟩ := setPnInfo_other c sp { c.pnInfo sp with nextPn := (c.pnInfo sp).nextPn + 1 }
    have key : ∀ sp', ((c.setPnInfo sp { c.pnInfo sp with nextPn := (c.pnInfo sp).nextPn + 1 }).pnInfo sp').largestLocalAck = (c.pnInfo sp').largestLocalAck ∧
        ((c.setPnInfo sp { c.pnInfo sp with nextPn := (c.pnInfo sp).nextPn + 1 }).pnInfo sp').largestRemoteAck = (c.pnInfo sp').largestRemoteAck ∧
        ((c.setPnInfo sp { c.pnInfo sp with nextPn := (c.pnInfo sp).nextPn + 1 }).pnInfo sp').localTlsSecrets = (c.pnInfo sp').localTlsSecrets ∧
        ((c.setPnInfo sp { c.pnInfo sp with nextPn := (c.pnInfo sp).nextPn + 1 }).pnInfo sp').remoteTlsSecrets = (c.pnInfo sp').remoteTlsSecrets := by
      intro sp'
      rw [pnInfo_set]
      split
      · rename_i h; subst h; exact ⟨rfl, rfl, rfl, rfl⟩
      · exact ⟨rfl, rfl, rfl, rfl⟩
    refine ⟨⟨g3.trans hc.version, g1.trans hc.dcid, fun sp' => ?_, ?_, fun sp' h => ?_⟩, g2, fun sp' => ?_⟩
    · rw [(key sp').1, (key sp').2.1]; exact hc.acks sp'
    · rw [(key .initial).2.2.1, (key .initial).2.2.2]; exact hc.initial
    · rw [(key sp').2.2.1, (key sp').2.2.2]; exact hc.other sp' h
    · rw [pnInfo_set]
      have hlt := (c.pnInfo sp).nextPn.isLt
      by_cases h : sp' = sp
      · subst h
        rw [if_pos rfl, if_pos rfl]
        show ((c.pnInfo sp').nextPn + 1).toNat = _
        rw [BitVec.toNat_add, show BitVec.toNat (1 : U64) = 1 from rfl]
        have h1 := hk sp'
        cases bp with
        | release => rw [h1]; simp only [counterAfter]; omega
        | debug =>
          rcases hb with hb | hb
          · cases hb
          · rw [h1] at hb ⊢; simp only [counterAfter] at hb ⊢; omega
      · rw [if_neg h, if_neg (fun e => h e.symm), hk sp']
        rfl

theorem run_counts {P : Prims} {server : Bool} {v : Version} {d : U160} {n : Nat} (bp : Profile) (ops : List ConnOp) (c : Connection) (hc : ConnFor P server v d n c) (k : PnSpace → Nat)
    (hk : ∀ sp, (c.pnInfo sp).nextPn.toNat = counterAfter bp (k sp)) :
    ConnFor P server v d n (c.run bp ops).2 ∧ (c.run bp ops).2.scid = lastId c.scid ops ∧
    ∀ sp, ((c.run bp ops).2.pnInfo sp).nextPn.toNat = counterAfter bp (k sp + taken sp ops) := by
  induction ops generalizing c k with
  | nil => exact ⟨hc, rfl, hk⟩
  | cons op ops ih =>
    show ConnFor P server v d n ((c.step bp op).2.run bp ops).2 ∧ ((c.step bp op).2.run bp ops).2.scid = _ ∧ ∀ sp, (((c.step bp op).2.run bp ops).2.pnInfo sp).nextPn.toNat = _
    have num : ∀ sp0, (c.step bp op).2 = (c.getNextPn bp sp0).2 → lastId c.scid (op :: ops) = lastId c.scid ops →
        (∀ sp, taken sp (op :: ops) = (if sp0 = sp then 1 else 0) + taken sp ops) →
        ConnFor P server v d n ((c.step bp op).2.run bp ops).2 ∧ ((c.step bp op).2.run bp ops).2.scid = lastId c.scid (op :: ops) ∧
        ∀ sp, (((c.step bp op).2.run bp ops).2.pnInfo sp).nextPn.toNat = counterAfter bp (k sp + taken sp (op :: ops)) := by
      intro sp0 e1 e2 e3
      obtain ⟨g1, g2, g3⟩ := getNextPn_counts bp hc sp0 k hk
      obtain ⟨i1, i2, i3⟩ := ih _ g1 _ g3
      rw [e1, e2]
      refine ⟨i1, by rw [i2, g2], fun sp => ?_⟩
      rw [i3 sp, e3 sp, Nat.add_assoc]
    cases op with
    | setScid d' n' =>
      have hp : ∀ sp, (c.setScid d' n').pnInfo sp = c.pnInfo sp := fun sp => by cases sp <;> rfl
      have := ih (c.setScid d' n') ⟨hc.version, hc.dcid, fun sp => by rw [hp]; exact hc.acks sp, hc.initial, fun sp h => by rw [hp]; exact hc.other sp h⟩ k
        (fun sp => by rw [hp]; exact hk sp)
      exact this
    | nextPn sp0 => exact num sp0 rfl rfl fun sp => rfl
    | buildInitial fs t => exact num .initial (initialNew_conn ..) rfl fun sp => by show (if sp = .initial then 1 else 0) + _ = _; cases sp <;> rfl
    | buildHandshake fs => exact num .handshake (handshakeNew_conn ..) rfl fun sp => by show (if sp = .handshake then 1 else 0) + _ = _; cases sp <;> rfl

/-- **C125**, for every history: the version, the peer's id, the keys and the acknowledgements are those of the new connection; the own id is the one
that was set last; the counter of a space has gone up by the operations that took a number of it, whether they succeeded or not. -/
theorem C125_history (P : Prims) (hP : PrimLaws P) (bp : Profile) (server : Bool) (v : Version) (d : U160) (n : Nat) (c0 : Connection)
    (h0 : Connection.new P server v d n = .ok c0) (ops : List ConnOp) :
    ConnFor P server v d n (c0.run bp ops).2 ∧ (c0.run bp ops).2.scid = lastId none ops ∧
    ∀ sp, ((c0.run bp ops).2.pnInfo sp).nextPn.toNat = counterAfter bp (taken sp ops) := by
  obtain ⟨-, hc, hs, h1⟩ := (C125_new P hP server v d n c0).mp h0
  obtain ⟨r1, r2, r3⟩ := run_counts bp ops c0 hc (fun _ => 0) (fun sp => by rw [h1 sp]; cases bp <;> rfl)
  refine ⟨r1, by rw [r2, hs], fun sp => ?_⟩
  rw [r3 sp, Nat.zero_add]

theorem taken_append (sp : PnSpace) (a b : List ConnOp) : taken sp (a ++ b) = taken sp a + taken sp b := by
  induction a with
  | nil => exact (Nat.zero_add _).symm
  | cons op a ih => cases op <;> simp only [List.cons_append, taken, ih] <;> omega
theorem taken_replicate (sp sp' : PnSpace) (m : Nat) : taken sp (List.replicate m (.nextPn sp')) = if sp' = sp then m else 0 := by
  induction m with
  | zero => split <;> rfl
  | succ m ih =>
    rw [List.replicate_succ]
    show (if sp' = sp then 1 else 0) + taken sp _ = _
    rw [ih]
    split <;> omega
theorem lastId_append (x : Option (U160 × Nat)) (a b : List ConnOp) : lastId x (a ++ b) = lastId (lastId x a) b := by
  induction a generalizing x with
  | nil => rfl
  | cons op a ih => cases op <;> exact ih _
theorem lastId_replicate (x : Option (U160 × Nat)) (sp : PnSpace) (m : Nat) : lastId x (List.replicate m (.nextPn sp)) = x := by
  induction m with
  | zero => rfl
  | succ m ih => exact ih

/-- **C125, exactly**: the connections there can be are the ones for an id of at most 20 bytes, with any counters and any own id. -/
theorem C125_reachable (P : Prims) (hP : PrimLaws P) (bp : Profile) (c : Connection) :
    Connection.Reachable P bp c ↔ ∃ server v d n, n ≤ 20 ∧ ConnFor P server v d n c := by
  constructor
  · rintro ⟨server, v, d, n, c0, ops, h0, rfl⟩
    exact ⟨server, v, d, n, ((C125_new P hP server v d n c0).mp h0).1, (C125_history P hP bp server v d n c0 h0 ops).1⟩
  · rintro ⟨server, v, d, n, hn, hc⟩
    obtain ⟨c0, h0⟩ := new_total P hP server v d n hn
    let m (sp : PnSpace) := (c.pnInfo sp).nextPn.toNat
    let ids : List ConnOp := match c.scid with | none => [] | some x => [.setScid x.1 x.2]
    let ops : List ConnOp := List.replicate (m .initial) (.nextPn .initial) ++ (List.replicate (m .handshake) (.nextPn .handshake) ++
      (List.replicate (m .application) (.nextPn .application) ++ ids))
    have e1 : lastId none ops = c.scid := by
      simp only [ops, lastId_append, lastId_replicate, ids]
      cases c.scid <;> rfl
    have e2 : ∀ sp, taken sp ids = 0 := by
      intro sp
      simp only [ids]
      cases c.scid <;> rfl
    have e3 : ∀ sp, taken sp ops = m sp := by
      intro sp
      simp only [ops, taken_append, taken_replicate, e2]
      cases sp <;> simp
    obtain ⟨r1, r2, r3⟩ := C125_history P hP bp server v d n c0 h0 ops
    refine ⟨server, v, d, n, c0, ops, h0, connFor_unique hc r1 (e1.symm.trans r2.symm) fun sp => BitVec.eq_of_toNat_eq ?_⟩
    rw [r3 sp, e3 sp]
    have := (c.pnInfo sp).nextPn.isLt
    show (c.pnInfo sp).nextPn.toNat = counterAfter bp (c.pnInfo sp).nextPn.toNat
    cases bp <;> simp only [counterAfter] <;> omega

/-- The id a connection gives as its own length byte is the length, for the peer's id of every connection there can be; the own id, which
`set_scid` takes at any length, loses what does not fit a byte, and asking for it before it is set is an error. -/
theorem C125_ids (P : Prims) (hP : PrimLaws P) (bp : Profile) (c : Connection) (h : Connection.Reachable P bp c) :
    (c.getDcid.1 = c.dcid.1 ∧ c.getDcid.2.toNat = c.dcid.2 ∧ c.dcid.2 ≤ 20) ∧
    (c.getScid.isPanic = false) ∧ (c.getScid.isErr = true ↔ c.scid = none) ∧
    ∀ d l, c.getScid = .ok (d, l) ↔ ∃ n, c.scid = some (d, n) ∧ l.toNat = n % 256 := by
  obtain ⟨server, v, d, n, hn, hc⟩ := (C125_reachable P hP bp c).mp h
  refine ⟨⟨rfl, ?_, ?_⟩, ?_⟩
  · show (BitVec.ofNat 8 c.dcid.2).toNat = _
    rw [hc.dcid, BitVec.toNat_ofNat]
    exact Nat.mod_eq_of_lt (by show n < _; omega)
  · rw [hc.dcid]; exact hn
  · unfold Connection.getScid
    cases hs : c.scid with
    | none => exact ⟨rfl, ⟨fun _ => rfl, fun _ => rfl⟩, fun d l => ⟨nofun, fun ⟨n, h, _⟩ => by cases h⟩⟩
    | some x =>
      obtain ⟨a, m⟩ := x
      refine ⟨rfl, ⟨nofun, nofun⟩, fun d l => ⟨fun h => ?_, fun ⟨n, h, hl⟩ => ?_⟩⟩
      · cases h
        exact ⟨m, rfl, BitVec.toNat_ofNat ..⟩
      · cases h
        have : BitVec.ofNat 8 m = l := BitVec.eq_of_toNat_eq ((BitVec.toNat_ofNat ..).trans hl.symm)
        show Out.ok (a, BitVec.ofNat 8 m) = _
        rw [this]

/-- **C125**, what the keys are used for: on every connection there can be, payloads are sealed with the keys of its own side and opened with those of
the other side, in the Initial space; the mask is made with the same ones; in the other spaces all of it is an error. -/
theorem C125_keys_used (P : Prims) (hP : PrimLaws P) (bp : Profile) (c : Connection) (h : Connection.Reachable P bp c) :
    ∃ server id kl kr, id.length ≤ 20 ∧ InitialKeys P server id kl ∧ InitialKeys P (!server) id kr ∧
      (∀ x ad pn y, c.encryptLocalPayload .initial x ad pn = .ok y ↔ SealedAs P kl.key (some kl.iv) (some ad) pn.toNat x y) ∧
      (∀ y ad pn x, c.decryptRemotePayload .initial y ad pn = .ok x ↔ SealedAs P kr.key (some kr.iv) (some ad) pn.toNat x y) ∧
      (∀ s s' m, c.getLocalHpMask .initial s = (.ok m, s') ↔ ∃ b, b.length = 16 ∧ s = makeResultStream b ++ s' ∧ IsMask P kl.hp b m) ∧
      (∀ s s' m, c.getRemoteHpMask .initial s = (.ok m, s') ↔ ∃ b, b.length = 16 ∧ s = makeResultStream b ++ s' ∧ IsMask P kr.hp b m) ∧
      (∀ k, c.getLocalProtectedPayloadLen .initial k = .ok (k + 16)) ∧
      ∀ sp, sp ≠ .initial → (∀ x ad pn, (c.encryptLocalPayload sp x ad pn).isErr = true) ∧ (∀ y ad pn, (c.decryptRemotePayload sp y ad pn).isErr = true) ∧
        (∀ s, ∃ e, c.getLocalHpMask sp s = (.err e, s)) ∧ (∀ s, ∃ e, c.getRemoteHpMask sp s = (.err e, s)) ∧ ∀ k, (c.getLocalProtectedPayloadLen sp k).isErr = true := by
  obtain ⟨server, v, d, n, hn, hc⟩ := (C125_reachable P hP bp c).mp h
  obtain ⟨id, kl, kr, hi, hl, hr, e1, e2⟩ := hc.initial
  have l1 : c.localSecrets .initial = .ok (secretsOf P kl) := by unfold Connection.localSecrets; rw [e1]
  have l2 : c.remoteSecrets .initial = .ok (secretsOf P kr) := by unfold Connection.remoteSecrets; rw [e2]
  have suite : ∀ {b k}, InitialKeys P b id k → (secretsOf P k).OfSuite P := by
    intro b k hk
    obtain ⟨k', hf, -, hiv, -⟩ := fromInitial_total P hP b id v
    obtain ⟨k'', e, hk''⟩ := fromInitial_ok hf
    have e' := congrArg Secrets.iv e
    rw [initialKeys_unique hk'' hk] at e'
    refine ⟨rfl, fun w hw => ?_⟩
    have : some w = some k'.iv := hw.symm.trans e'.symm
    cases this
    omega
  refine ⟨server, id, kl, kr, by rw [hi.1]; exact hn, hl, hr, fun x ad pn y => ?_, fun y ad pn x => ?_, fun s s' m => ?_, fun s s' m => ?_, fun k => ?_, fun sp hsp => ?_⟩
  · unfold Connection.encryptLocalPayload
    rw [l1, Out.ok_bind]
    exact C122_seals P _ (suite hl) x (some ad) pn y
  · unfold Connection.decryptRemotePayload
    rw [l2, Out.ok_bind]
    exact C122_opens P hP _ (suite hr) y (some ad) pn x
  · unfold Connection.getLocalHpMask
    rw [l1]
    exact C124_mask P (secretsOf P kl) rfl s s' m
  · unfold Connection.getRemoteHpMask
    rw [l2]
    exact C124_mask P (secretsOf P kr) rfl s s' m
  · unfold Connection.getLocalProtectedPayloadLen
    rw [l1, Out.ok_bind]
    exact congrArg Out.ok (Nat.add_comm 16 k)
  · obtain ⟨n1, n2⟩ := hc.other sp hsp
    have m1 : c.localSecrets sp = .err (.internalError "attempted to retrieve unset local tls secrets") := by unfold Connection.localSecrets; rw [n1]
    have m2 : c.remoteSecrets sp = .err (.internalError "attempted to retrieve unset remote tls secrets") := by unfold Connection.remoteSecrets; rw [n2]
    unfold Connection.encryptLocalPayload Connection.decryptRemotePayload Connection.getLocalHpMask Connection.getRemoteHpMask Connection.getLocalProtectedPayloadLen
    rw [m1, m2]
    exact ⟨fun _ _ _ => rfl, fun _ _ _ => rfl, fun _ => ⟨_, rfl⟩, fun _ => ⟨_, rfl⟩, fun _ => rfl⟩

/-- A history over two spaces with an id set in between: what `C125_history` says of it. -/
example : taken .initial [.nextPn .initial, .setScid ⟨0, 7⟩ 8, .buildInitial [.ping] none, .nextPn .application] = 2 ∧
    lastId none [.nextPn .initial, .setScid ⟨0, 7⟩ 8, .buildInitial [.ping] none, .nextPn .application] = some (⟨0, 7⟩, 8) := ⟨rfl, rfl⟩
/-- The crate's algorithms and an id of 8 bytes: there is such a connection, and it is the one `new` makes. -/
example : ∃ c, Connection.new real true .v1 ⟨0, 0x0102030405060708⟩ 8 = .ok c ∧ ConnFor real true .v1 ⟨0, 0x0102030405060708⟩ 8 c ∧ (c.pnInfo .initial).nextPn = 0 := by
  obtain ⟨c, h⟩ := new_total real real_laws true .v1 ⟨0, 0x0102030405060708⟩ 8 (by decide)
  obtain ⟨-, h1, -, h2⟩ := (C125_new real real_laws true .v1 ⟨0, 0x0102030405060708⟩ 8 c).mp h
  exact ⟨c, h, h1, h2 _⟩
/-- And of 21 bytes: a panic. -/
example : (Connection.new real true .v1 ⟨0, 7⟩ 21).isPanic = true := (C125_new_panics real real_laws true .v1 ⟨0, 7⟩ 21).2.mpr (by decide)

end QuicSea
