import Verif.Props.Every
import Verif.Props.Acked
import Verif.Props.Authentic
import Verif.Model.ConnLife
/-
C137: the packet number spaces do not influence one another.
-/
namespace Spec
open QuicSea

/-- The packet number space of a packet (RFC 9000 section 12.3), by the kind (`spaceOf`: of the packet itself). -/
def kindSpace : PacketType → Option PnSpace
  | .initial => some .initial
  | .handshake => some .handshake
  | .zeroRtt => some .application
  | .oneRtt => some .application
  | _ => none

/-- Two connections that differ in nothing but in the other spaces. -/
def AgreeIn (sp : PnSpace) (c c' : Connection) : Prop := c.version = c'.version ∧ c.dcid = c'.dcid ∧ c.scid = c'.scid ∧ c.pnInfo sp = c'.pnInfo sp

/-- What happens in the space, or in none. Datagrams may hold packets of any space. -/
def concerns (sp : PnSpace) : Happening → Bool
  | .receives _ => true
  | .does (.setScid _ _) => true
  | .does (.nextPn sp') => sp' = sp
  | .does (.buildInitial _ _) => sp = .initial
  | .does (.buildHandshake _) => sp = .handshake

/-- What is seen in the space of what comes of it: of a datagram the packets of the space. -/
def seenIn (sp : PnSpace) : Result → Option (List Packet ⊕ ConnOut)
  | .delivered (.ok ps) => some (.inl (ps.filter fun p => spaceOf p = some sp))
  | .delivered _ => some (.inl [])
  | .done .unit => none
  | .done (.pn sp' r) => if sp' = sp then some (.inr (.pn sp' r)) else none
  | .done (.initial r) => if sp = .initial then some (.inr (.initial r)) else none
  | .done (.handshake r) => if sp = .handshake then some (.inr (.handshake r)) else none

/-- Keys that can be keys, in every space where there are any. -/
def KeyedOrNot (P : Prims) (c : Connection) : Prop :=
  ∀ sp, (∃ k, KeyLens k ∧ c.remoteSecrets sp = .ok (secretsOf P k)) ∨ ∃ e, c.remoteSecrets sp = .err e

/-- C137 for given algorithms: what is seen in a space is a matter of what happens in it. -/
def C137For (P : Prims) : Prop :=
  ∀ (bp : Profile) (sp : PnSpace) (c c' : Connection), KeyedOrNot P c → KeyedOrNot P c' → AgreeIn sp c c' → ∀ hs hs' : List Happening,
    hs.filter (concerns sp) = hs'.filter (concerns sp) → (c.live bp hs).1.filterMap (seenIn sp) = (c'.live bp hs').1.filterMap (seenIn sp)
/-- C137 as a statement. -/
def C137Statement : Prop := ∀ P, PrimLaws P → C137For P
end Spec

namespace QuicSea
open Spec
variable {bp : Profile}

theorem agree_symm {sp : PnSpace} {c c' : Connection} (h : AgreeIn sp c c') : AgreeIn sp c' c := ⟨h.1.symm, h.2.1.symm, h.2.2.1.symm, h.2.2.2.symm⟩

/-! ### Writing -/

theorem agree_header {sp : PnSpace} {c c' : Connection} (h : AgreeIn sp c c') (b : U8) : LongPacketHeader.fromConnection c b = LongPacketHeader.fromConnection c' b := by
  obtain ⟨h1, h2, h3, -⟩ := h
  simp only [LongPacketHeader.fromConnection, Connection.getDcid, Connection.getScid, Connection.getVersionField, h1, h2, h3]

theorem agree_next {sp : PnSpace} {c c' : Connection} (h : AgreeIn sp c c') : (c.getNextPn bp sp).1 = (c'.getNextPn bp sp).1 ∧ AgreeIn sp (c.getNextPn bp sp).2 (c'.getNextPn bp sp).2 := by
  obtain ⟨h1, h2, h3, h4⟩ := h
  unfold Connection.getNextPn
  dsimp only
  rw [h4]
  cases addU64 bp (c'.pnInfo sp).nextPn 1 with
  | err e => exact ⟨rfl, h1, h2, h3, h4⟩
  | panic e => exact ⟨rfl, h1, h2, h3, h4⟩
  | ok n =>
    refine ⟨rfl, ?_⟩
    cases sp <;> exact ⟨h1, h2, h3, rfl⟩

/-- An operation in another space changes nothing in this one. -/
theorem next_other {sp sp' : PnSpace} (hne : sp' ≠ sp) (c : Connection) : AgreeIn sp (c.getNextPn bp sp').2 c := by
  unfold Connection.getNextPn
  dsimp only
  cases addU64 bp (c.pnInfo sp').nextPn 1 with
  | err e => exact ⟨rfl, rfl, rfl, rfl⟩
  | panic e => exact ⟨rfl, rfl, rfl, rfl⟩
  | ok n => cases sp <;> cases sp' <;> first | exact absurd rfl hne | exact ⟨rfl, rfl, rfl, rfl⟩

theorem new_conn (fs : List Frame) (token : Option Bytes) (c : Connection) : (PacketInitial.new bp fs token c).2 = (c.getNextPn bp .initial).2 ∧
    (PacketHandshake.new bp fs c).2 = (c.getNextPn bp .handshake).2 := by
  constructor
  · unfold PacketInitial.new
    rcases c.getNextPn bp .initial with ⟨o, c1⟩
    cases o <;> rfl
  · unfold PacketHandshake.new
    rcases c.getNextPn bp .handshake with ⟨o, c1⟩
    cases o <;> rfl

theorem agree_trans {sp : PnSpace} {a b c : Connection} (h : AgreeIn sp a b) (g : AgreeIn sp b c) : AgreeIn sp a c :=
  ⟨h.1.trans g.1, h.2.1.trans g.2.1, h.2.2.1.trans g.2.2.1, h.2.2.2.trans g.2.2.2⟩

/-- What an operation that does not concern the space shows in it, and leaves in it. -/
theorem step_elsewhere {sp : PnSpace} {op : ConnOp} (h : concerns sp (.does op) = false) (c : Connection) :
    seenIn sp (.done (c.step bp op).1) = none ∧ AgreeIn sp (c.step bp op).2 c := by
  cases op with
  | setScid a b => cases h
  | nextPn sp' =>
    have hne : sp' ≠ sp := of_decide_eq_false h
    exact ⟨if_neg hne, next_other hne c⟩
  | buildInitial fs t =>
    have hne : sp ≠ .initial := of_decide_eq_false h
    refine ⟨if_neg hne, ?_⟩
    show AgreeIn sp (PacketInitial.new bp fs t c).2 c
    rw [(new_conn fs t c).1]
    exact next_other (Ne.symm hne) c
  | buildHandshake fs =>
    have hne : sp ≠ .handshake := of_decide_eq_false h
    refine ⟨if_neg hne, ?_⟩
    show AgreeIn sp (PacketHandshake.new bp fs c).2 c
    rw [(new_conn fs none c).2]
    exact next_other (Ne.symm hne) c

/-- What an operation shows in the space is a matter of the space, and so is what it leaves in it. -/
theorem step_inside {sp : PnSpace} {op : ConnOp} (h : concerns sp (.does op) = true) {c c' : Connection} (hc : AgreeIn sp c c') :
    (c.step bp op).1 = (c'.step bp op).1 ∧ AgreeIn sp (c.step bp op).2 (c'.step bp op).2 := by
  cases op with
  | setScid a b => exact ⟨rfl, hc.1, hc.2.1, rfl, by have := hc.2.2.2; cases sp <;> exact this⟩
  | nextPn sp' =>
    obtain rfl : sp' = sp := of_decide_eq_true h
    obtain ⟨g1, g2⟩ := agree_next (bp := bp) hc
    exact ⟨congrArg (ConnOut.pn sp') g1, g2⟩
  | buildInitial fs t =>
    obtain rfl : sp = .initial := of_decide_eq_true h
    obtain ⟨g1, g2⟩ := agree_next (bp := bp) hc
    show ConnOut.initial (PacketInitial.new bp fs t c).1 = ConnOut.initial (PacketInitial.new bp fs t c').1 ∧ AgreeIn _ (PacketInitial.new bp fs t c).2 (PacketInitial.new bp fs t c').2
    rw [(new_conn fs t c).1, (new_conn fs t c').1]
    refine ⟨congrArg _ ?_, g2⟩
    unfold PacketInitial.new
    generalize c.getNextPn bp .initial = x at g1 g2
    generalize c'.getNextPn bp .initial = x' at g1 g2
    obtain ⟨o, c1⟩ := x
    obtain ⟨o', c1'⟩ := x'
    dsimp only at g1 g2
    subst g1
    cases o with
    | ok r => dsimp only; rw [agree_header g2]
    | _ => rfl
  | buildHandshake fs =>
    obtain rfl : sp = .handshake := of_decide_eq_true h
    obtain ⟨g1, g2⟩ := agree_next (bp := bp) hc
    show ConnOut.handshake (PacketHandshake.new bp fs c).1 = ConnOut.handshake (PacketHandshake.new bp fs c').1 ∧ AgreeIn _ (PacketHandshake.new bp fs c).2 (PacketHandshake.new bp fs c').2
    rw [(new_conn fs none c).2, (new_conn fs none c').2]
    refine ⟨congrArg _ ?_, g2⟩
    unfold PacketHandshake.new
    generalize c.getNextPn bp .handshake = x at g1 g2
    generalize c'.getNextPn bp .handshake = x' at g1 g2
    obtain ⟨o, c1⟩ := x
    obtain ⟨o', c1'⟩ := x'
    dsimp only at g1 g2
    subst g1
    cases o with
    | ok r => dsimp only; rw [agree_header g2]
    | _ => rfl

/-- C137: writing a packet is a matter of its space alone.
Missing for the full statement: as in `C137_datagram_partial`. -/
theorem C137_serialize_partial (c c' : Connection) : (AgreeIn .initial c c' → ∀ p : PacketInitial, p.serialize c = p.serialize c') ∧
    (AgreeIn .handshake c c' → ∀ p : PacketHandshake, p.serialize c = p.serialize c') := by
  have key : ∀ {sp}, AgreeIn sp c c' → c.localSecrets sp = c'.localSecrets sp := by
    intro sp h
    unfold Connection.localSecrets
    rw [h.2.2.2]
  constructor <;> intro h p <;>
    simp only [PacketInitial.serialize, PacketHandshake.serialize, Connection.getLocalProtectedPayloadLen, Connection.encryptLocalPayload, Connection.getLocalHpMask, key h]

/-! ### Reading -/

theorem agree_read {sp : PnSpace} {c c' : Connection} (h : AgreeIn sp c c') : c.getRemoteHpMask sp = c'.getRemoteHpMask sp ∧
    c.decryptRemotePayload sp = c'.decryptRemotePayload sp ∧ Connection.reconstructRemotePn bp c sp = Connection.reconstructRemotePn bp c' sp := by
  have e : c.remoteSecrets sp = c'.remoteSecrets sp := by
    unfold Connection.remoteSecrets
    rw [h.2.2.2]
  refine ⟨?_, ?_, ?_⟩
  · simp only [Connection.getRemoteHpMask, e]
  · funext x y z; simp only [Connection.decryptRemotePayload, e]
  · funext l; simp only [Connection.reconstructRemotePn, h.2.2.2]

/-- **C137**: what is decoded from a packet is a matter of the space it belongs to; of no space, if it belongs to none.
Missing for the full statement: as in `C137_datagram_partial`. -/
theorem C137_packet_partial (bp : Profile) (sp : PnSpace) (c c' : Connection) (h : AgreeIn sp c c') (s : Stream)
    (hl : ∀ x rest, LongAt s x rest → kindSpace (packetKind x.headerByte x.version) = none ∨ kindSpace (packetKind x.headerByte x.version) = some sp)
    (hs : ∀ x rest, ShortAt s x rest → sp = .application) : decodeNextPacket bp c s = decodeNextPacket bp c' s := by
  obtain ⟨e1, e2, e3⟩ := agree_read (bp := bp) h
  rcases hx : nextHeaderFromStream s with ⟨o, s1⟩
  cases o with
  | err e =>
    unfold decodeNextPacket
    simp only [Rd.bind_ok (Rd.cloned_apply s)]
    rw [Rd.bind_apply, Rd.lift_apply, Rd.bind_apply, Rd.lift_apply, hx]
    rfl
  | panic w => have := nextHeader_noPanic s; rw [hx] at this; cases this
  | ok x =>
    cases x with
    | long x =>
      rw [decodeNext_long hx, decodeNext_long hx]
      have := hl x _ (next_longAt hx)
      cases hk : packetKind x.headerByte x.version <;> rw [hk] at this <;> try rfl
      all_goals (rcases this with g | g; · cases g)
      all_goals (cases g; simp only [longReader, PacketHandshake.fromStream, PacketInitial.fromStream, PacketZeroRtt.fromStream, e1, e2, e3])
    | short x =>
      rw [decodeNext_short hx, decodeNext_short hx]
      have := hs x _ (next_shortAt hx)
      subst this
      simp only [PacketOneRtt.fromStream, e1, e2, e3]

/-- The kind of a decoded packet, where it begins. -/
theorem decoded_space {c : Connection} {s s' : Stream} {p : Packet} (h : decodeNextPacket bp c s = (.ok p, s')) :
    (∀ x rest, LongAt s x rest → kindSpace (packetKind x.headerByte x.version) = spaceOf p) ∧ (∀ x rest, ShortAt s x rest → spaceOf p = some .application) := by
  constructor
  · intro x rest hx
    have := decoded_kind (longAt_next hx) h
    dsimp only at this
    rw [← this]
    cases p <;> rfl
  · intro x rest hx
    rw [decodeNext_short (shortAt_next hx)] at h
    obtain ⟨r, s1, -, h⟩ := Rd.bind_eq_ok h
    cases h
    rfl

theorem packet_same {sp : PnSpace} {c c' : Connection} (hc : AgreeIn sp c c') {s s' : Stream} {p : Packet} (h : decodeNextPacket bp c s = (.ok p, s'))
    (hp : spaceOf p = none ∨ spaceOf p = some sp) : decodeNextPacket bp c' s = (.ok p, s') := by
  obtain ⟨g1, g2⟩ := decoded_space h
  rw [← C137_packet_partial bp sp c c' hc s (fun x rest hx => by rw [g1 x rest hx]; exact hp) (fun x rest hx => ?_)]
  · exact h
  · rw [g2 x rest hx] at hp
    rcases hp with e | e
    · cases e
    · exact (Option.some.inj e).symm

/-- **C137**: a datagram whose packets are all of one space, or of none, is decoded alike whatever is in the other spaces.
Missing for the full statement: datagrams that mix spaces, for which it is false (`C137_lost`). -/
theorem C137_datagram_partial (bp : Profile) (sp : PnSpace) (c c' : Connection) (hc : AgreeIn sp c c') (s s' : Stream) (ps : List Packet)
    (h : decodePackets bp c s = (.ok ps, s')) (hp : ∀ p ∈ ps, spaceOf p = none ∨ spaceOf p = some sp) : decodePackets bp c' s = (.ok ps, s') := by
  induction ps generalizing s with
  | nil =>
    cases s with
    | nil => cases h; rfl
    | cons x s =>
      rw [decodePackets_eq bp c _ (by simp)] at h
      obtain ⟨p, s1, -, h⟩ := Rd.bind_eq_ok h
      obtain ⟨qs, s2, -, h⟩ := Rd.bind_eq_ok h
      cases h
  | cons p ps ih =>
    cases s with
    | nil => cases h
    | cons x s =>
      rw [decodePackets_eq bp c _ (by simp)] at h
      obtain ⟨q, s1, h1, h⟩ := Rd.bind_eq_ok h
      obtain ⟨qs, s2, h2, h⟩ := Rd.bind_eq_ok h
      cases h
      rw [decodePackets_eq bp c' _ (by simp), Rd.bind_ok (packet_same hc h1 (hp _ (by simp))), Rd.bind_ok (ih _ h2 fun p hm => hp p (by simp [hm]))]
      rfl

/-! ### Histories -/

/-- Datagrams that are decoded, into packets of the space or of none. -/
def WithinSpace (bp : Profile) (sp : PnSpace) (c : Connection) (hs : List Happening) : Prop :=
  ∀ b, Happening.receives b ∈ hs → ∃ ps s', decodePackets bp c (makeResultStream b) = (.ok ps, s') ∧ ∀ p ∈ ps, spaceOf p = none ∨ spaceOf p = some sp

theorem withinSpace_agree {sp : PnSpace} {c c' : Connection} (hc : AgreeIn sp c c') {hs : List Happening} (h : WithinSpace bp sp c hs) : WithinSpace bp sp c' hs := by
  intro b hb
  obtain ⟨ps, s', h1, h2⟩ := h b hb
  exact ⟨ps, s', C137_datagram_partial bp sp c c' hc _ _ _ h1 h2, h2⟩

theorem live_purge {sp : PnSpace} {c c' : Connection} (hc : AgreeIn sp c c') (hs : List Happening) (h : WithinSpace bp sp c hs) :
    (c.live bp hs).1.filterMap (seenIn sp) = (c'.live bp (hs.filter (concerns sp))).1.filterMap (seenIn sp) ∧
      AgreeIn sp (c.live bp hs).2 (c'.live bp (hs.filter (concerns sp))).2 := by
  induction hs generalizing c c' with
  | nil => exact ⟨rfl, hc⟩
  | cons x hs ih =>
    have hw : WithinSpace bp sp c hs := fun b hb => h b (List.mem_cons_of_mem _ hb)
    cases x with
    | receives b =>
      obtain ⟨ps, s', h1, h2⟩ := h b List.mem_cons_self
      obtain ⟨g1, g2⟩ := ih hc hw
      have e : (Happening.receives b :: hs).filter (concerns sp) = .receives b :: hs.filter (concerns sp) := List.filter_cons_of_pos rfl
      rw [e]
      simp only [Connection.live, C137_datagram_partial bp sp c c' hc _ _ _ h1 h2, h1, List.filterMap_cons, g1]
      exact ⟨trivial, g2⟩
    | does op =>
      by_cases hop : concerns sp (.does op) = true
      · rw [List.filter_cons_of_pos hop]
        obtain ⟨k1, k2⟩ := step_inside (bp := bp) hop hc
        have hw' : WithinSpace bp sp (c.step bp op).2 hs := by
          intro b hb
          obtain ⟨ps, s', h1, h2⟩ := hw b hb
          exact ⟨ps, s', by rw [← h1]; exact C71_history_independent bp bp c [op] _, h2⟩
        obtain ⟨g1, g2⟩ := ih k2 hw'
        simp only [Connection.live, List.filterMap_cons, g1, k1]
        exact ⟨trivial, g2⟩
      · have hop : concerns sp (.does op) = false := by simpa using hop
        rw [List.filter_cons_of_neg (by rw [hop]; decide)]
        obtain ⟨k1, k2⟩ := step_elsewhere (bp := bp) hop c
        obtain ⟨g1, g2⟩ := ih (agree_trans k2 hc) (withinSpace_agree (agree_symm k2) hw)
        simp only [Connection.live, List.filterMap_cons, k1]
        exact ⟨g1, g2⟩

/-- **C137**, what holds of the full statement: any operations in any spaces, and datagrams that hold packets of the space or of none. In particular, without any
datagrams: the numbers given out and the packets built in a space are a matter of what was done in it.
Missing for the full statement: datagrams that mix spaces, for which it is false (`C137_lost`). -/
theorem C137_history_partial (bp : Profile) (sp : PnSpace) (c c' : Connection) (hc : AgreeIn sp c c') (hs hs' : List Happening)
    (he : hs.filter (concerns sp) = hs'.filter (concerns sp)) (h : WithinSpace bp sp c hs) :
    (c.live bp hs).1.filterMap (seenIn sp) = (c'.live bp hs').1.filterMap (seenIn sp) ∧ AgreeIn sp (c.live bp hs).2 (c'.live bp hs').2 := by
  have h' : WithinSpace bp sp c' hs' := by
    intro b hb
    have : Happening.receives b ∈ hs := (List.mem_filter.mp (he ▸ List.mem_filter.mpr ⟨hb, rfl⟩)).1
    exact withinSpace_agree hc h b this
  obtain ⟨g1, g2⟩ := live_purge hc hs h
  obtain ⟨k1, k2⟩ := live_purge (c := c') (c' := c') ⟨rfl, rfl, rfl, rfl⟩ hs' h'
  rw [he] at g1 g2
  exact ⟨g1.trans k1.symm, agree_trans g2 (agree_symm k2)⟩

/-! ### Coalesced packets -/

/-- **C137** fails in one way: in a datagram. Packets of the space are lost with a packet of another space that fails, whatever they are. -/
theorem C137_lost (bp : Profile) (c : Connection) (l : List (Bytes × Packet)) (bad : Bytes) (hne : bad ≠ []) (e : Error) (sp : PnSpace)
    (h : ∀ x ∈ l, ∀ s, decodeNextPacket bp c (makeResultStream x.1 ++ s) = (.ok x.2, s)) (hb : (decodeNextPacket bp c (makeResultStream bad)).1 = .err e) (hs : List Happening) :
    (c.live bp (.receives ((l.map Prod.fst).flatten ++ bad) :: hs)).1.filterMap (seenIn sp) = .inl [] :: (c.live bp hs).1.filterMap (seenIn sp) := by
  simp only [Connection.live, C67_all_lost bp c l bad hne e h hb, List.filterMap_cons, seenIn]

theorem C137_false_any (P : Prims) (hP : PrimLaws P) : ¬ C137For P := by
  intro h
  obtain ⟨c, out, hc, hr, hd⟩ := any_payload hP [1] [.ping] (by decide) (by decide +kernel)
  obtain ⟨out', ho⟩ := protected_exists hP anyKeys_lens 0x0f 0xe3 ([0, 0, 0, 1, 8, 1, 2, 3, 4, 5, 6, 7, 8, 2, 0x11, 0x22] ++ [41]) [0, 0, 0, 1] exPayload 1 (by decide) (by decide)
    (by decide) (by decide)
  have hw : HandshakeWire P anyKeys (anyHeader 0xe3 1) [0, 0, 0, 1] (1 : U64).toNat exPayload out' :=
    ⟨_, [41], any_fields 0xe3, by decide, by decide, ⟨0, by decide +kernel⟩, ho⟩
  have hh := C53_four_bytes_partial P hP .debug (anyHs P c) anyKeys anyKeys_lens rfl rfl (anyHeader 0xe3 1) rfl [0, 0, 0, 1] exPayload out' 1 (.ping :: List.replicate 20 .padding) hw
    (by decide) (by decide +kernel) (by decide +kernel)
  have hag : AgreeIn .initial (anyHs P c) c := ⟨rfl, rfl, rfl, rfl⟩
  have hd' := fun s => packet_same (agree_symm hag) (hd s) (.inr rfl)
  obtain ⟨⟨-, kr, -, lk, -, m⟩, hno⟩ := reachable_keys hP hr
  have hk : KeyedOrNot P c := by
    intro sp
    by_cases e : sp = .initial
    · exact .inl ⟨kr, lk, e ▸ m⟩
    · exact .inr (hno sp e).2
  have hk' : KeyedOrNot P (anyHs P c) := by
    intro sp
    cases sp with
    | initial => exact hk .initial
    | handshake => exact .inl ⟨anyKeys, anyKeys_lens, rfl⟩
    | application => exact hk .application
  have hh0 := hh []
  rw [List.append_nil] at hh0
  have herr : (decodeNextPacket .debug c (makeResultStream out')).1.isErr = true := by
    obtain ⟨x, s1, hx⟩ := decodeNext_header hh0
    cases x with
    | long x => exact C34_no_keys_error P hP .debug .debug c hr _ (.inl ⟨x, s1, next_longAt hx, .inl (decoded_kind hx hh0).symm⟩)
    | short x => exact absurd ((decoded_space hh0).2 x s1 (next_shortAt hx)) (by intro e; cases e)
  obtain ⟨e, he⟩ : ∃ e, (decodeNextPacket .debug c (makeResultStream out')).1 = .err e := by
    revert herr
    cases (decodeNextPacket .debug c (makeResultStream out')).1 with
    | err e => exact fun _ => ⟨e, rfl⟩
    | ok a => intro h; cases h
    | panic w => intro h; cases h
  have hne : out' ≠ [] := by
    rintro rfl
    have := decodeNext_nil .debug (anyHs P c)
    rw [show decodeNextPacket .debug (anyHs P c) [] = _ from hh0] at this
    cases this
  have h1 := h .debug .initial (anyHs P c) c hk' hk hag [.receives (out ++ out')] [.receives (out ++ out')] rfl
  have h2 := C137_lost .debug c [(out, _)] out' hne e .initial (by intro x hx; rcases List.mem_singleton.mp hx with rfl; exact hd) he []
  have h3 := C36_any_packets .debug (anyHs P c) [(out, _), (out', _)] (by
    intro x hx
    rcases List.mem_cons.mp hx with rfl | hx
    · exact hd'
    · rcases List.mem_singleton.mp hx with rfl
      exact hh)
  simp only [List.map_cons, List.map_nil, List.flatten_cons, List.flatten_nil, List.append_nil] at h2 h3
  rw [h2] at h1
  simp only [Connection.live, h3, seenIn, List.filterMap_cons, List.filterMap_nil] at h1
  exact absurd h1 (by simp [spaceOf])

theorem C137_false : ¬ C137Statement := fun h => C137_false_any toy toy_laws (h toy toy_laws)
theorem C137_false_real : ¬ C137For real := C137_false_any real real_laws

/-! Two numbers are taken in the Handshake space, one Initial packet is received; in the Initial space nothing of the former is seen. -/
example : WithinSpace .debug .initial exConn [.does (.nextPn .handshake), .receives (exOut 4), .does (.nextPn .handshake), .does (.nextPn .initial)] ∧
    ((exConn.live .debug [.does (.nextPn .handshake), .receives (exOut 4), .does (.nextPn .handshake), .does (.nextPn .initial)]).1.filterMap (seenIn .initial)).length = 2 := by
  refine ⟨?_, by decide +kernel⟩
  intro b hb
  simp only [List.mem_cons, List.not_mem_nil, or_false, reduceCtorEq, false_or, Happening.receives.injEq] at hb
  subst hb
  have hd : ∃ p, spaceOf p = some .initial ∧ ∀ s, decodeNextPacket .debug exConn (makeResultStream (exOut 4) ++ s) = (.ok p, s) :=
    ⟨_, by rfl, C32_four_bytes_partial toy toy_laws .debug exConn exConn_reachable exKeys exKeys_ok (exHeader 4) rfl [] (exPn 4) exPayload (exOut 4) 1
      (.ping :: List.replicate 20 .padding) (exOut_wire 4 (by decide)) rfl (by decide +kernel) (by decide +kernel)⟩
  obtain ⟨p, h1, h2⟩ := hd
  exact ⟨[p], [], decoded_alone h2, fun q hq => by rcases List.mem_singleton.mp hq with rfl; exact .inr h1⟩

end QuicSea
