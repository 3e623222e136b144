import Verif.Spec.Routing
import Verif.Model.Routing
import Verif.Proofs.Decode
/-
Lemmas on datagram addressing and the connection table.
-/
namespace QuicSea
open Spec

/-- The id value the code uses for a header of this kind and destination id. -/
def routeVal (kind : PacketType) (d : Bytes) : Nat := if kind = .versionNegotiation then 0 else beNat d

theorem packetKind_vn {first : U8} {v : U32} (h : 128 ≤ first.toNat) : packetKind first v = .versionNegotiation ↔ v.toNat = 0 := by
  unfold packetKind
  rw [if_neg (by omega)]
  by_cases hv : v.toNat = 0
  · simp [hv]
  · rw [if_neg hv]
    constructor
    · intro h
      split at h <;> cases h
    · intro h; exact absurd h hv

theorem packetKind_long {first : U8} {v : U32} (h : 128 ≤ first.toNat) : packetKind first v ≠ .oneRtt := by
  unfold packetKind
  rw [if_neg (by omega)]
  split
  · simp
  · split <;> simp

theorem u160_of_val (n : Nat) (h : n < 2 ^ 160) : ∃ x : U160, cidVal x = n :=
  ⟨⟨BitVec.ofNat 32 (n / 2 ^ 128), BitVec.ofNat 128 (n % 2 ^ 128)⟩, by
    simp only [cidVal, BitVec.toNat_ofNat]
    omega⟩

theorem beNat_lt_160 {d : Bytes} (h : d.length ≤ 20) : beNat d < 2 ^ 160 := by
  have h1 := beNat_lt d
  have h2 : 256 ^ d.length ≤ 256 ^ 20 := Nat.pow_le_pow_right (by decide) h
  have h3 : (256 : Nat) ^ 20 = 2 ^ 160 := by decide
  omega

theorem stream_suffix {data bs : Bytes} {s : Stream} (h : makeResultStream data = makeResultStream bs ++ s) :
    ∃ rest, s = makeResultStream rest :=
  ⟨data.drop bs.length, by
    have := congrArg (List.drop bs.length) h
    simp only [makeResultStream, ← List.map_drop] at this
    rw [makeResultStream, this, List.drop_left' (by simp)]⟩

theorem addressed_header {data kind d} (h : Addressed data kind d) :
    ∃ hd s', nextHeaderFromStream (makeResultStream data) = (.ok hd, s') ∧ hd.getPacketType = .ok kind
      ∧ cidVal hd.getDestinationId = routeVal kind d ∧ hd.getDestinationIdLength.toNat = d.length := by
  rcases h with ⟨first, rest, rfl, hf, hl, rfl⟩ | ⟨first, vb, dl, sl, s, rest, v, rfl, hf, hvl, hv, hdl, hsl, hlen, rfl⟩
  · obtain ⟨x, hx⟩ := u160_of_val (beNat d) (beNat_lt_160 (by omega))
    refine ⟨.short { headerByte := first, destinationConnectionId := x, isProtected := true }, makeResultStream rest,
      nextHeader_short_iff.mpr ⟨[first] ++ d, by simp, ⟨d, rfl, hl, hx.symm⟩, hf, rfl⟩, rfl, ?_, by rw [hl]; rfl⟩
    rw [routeVal, if_neg (by decide)]; exact hx
  · by_cases h0 : v.toNat = 0
    · have hk := (packetKind_vn (v := v) hf).mpr h0
      refine ⟨.long
          { headerByte := first, version := v, destinationConnectionIdLength := dl, destinationConnectionId := .zero
            sourceConnectionIdLength := sl, sourceConnectionId := .zero, isProtected := false
            versionNegotiation := some ⟨d, s⟩ }, makeResultStream rest,
        nextHeader_long_iff.mpr ⟨[first] ++ vb ++ [dl] ++ d ++ [sl] ++ s, by simp, ⟨vb, d, s, rfl, hvl, hv, hdl, hsl, ?_⟩, hf, ?_⟩,
        packetType_eq _ hf, ?_, hdl.symm⟩
      · rw [if_pos h0]; exact ⟨rfl, cidVal_zero, cidVal_zero⟩
      · rw [hk]; rfl
      · rw [routeVal, if_pos hk]; exact cidVal_zero
    · obtain ⟨h20, hs20⟩ := hlen h0
      have hk : packetKind first v ≠ .versionNegotiation := fun e => h0 ((packetKind_vn hf).mp e)
      obtain ⟨x, hx⟩ := u160_of_val (beNat d) (beNat_lt_160 h20)
      obtain ⟨y, hy⟩ := u160_of_val (beNat s) (beNat_lt_160 hs20)
      refine ⟨.long
          { headerByte := first, version := v, destinationConnectionIdLength := dl, destinationConnectionId := x
            sourceConnectionIdLength := sl, sourceConnectionId := y, isProtected := protectable (packetKind first v)
            versionNegotiation := none }, makeResultStream rest,
        nextHeader_long_iff.mpr ⟨[first] ++ vb ++ [dl] ++ d ++ [sl] ++ s, by simp, ⟨vb, d, s, rfl, hvl, hv, hdl, hsl, ?_⟩, hf, rfl⟩,
        packetType_eq _ hf, ?_, hdl.symm⟩
      · rw [if_neg h0]; exact ⟨rfl, h20, hs20, hx.symm, hy.symm⟩
      · rw [routeVal, if_neg hk]; exact hx

theorem header_addressed {data hd s'} (h : nextHeaderFromStream (makeResultStream data) = (.ok hd, s')) :
    ∃ kind d, Addressed data kind d ∧ hd.getPacketType = .ok kind
      ∧ cidVal hd.getDestinationId = routeVal kind d ∧ hd.getDestinationIdLength.toNat = d.length
      ∧ (kind ≠ .versionNegotiation → d.length ≤ 20) := by
  cases hd with
  | short x =>
    obtain ⟨bs, e, ⟨d, rfl, hl, hd⟩, hb, hp⟩ := nextHeader_short_iff.mp h
    obtain ⟨rest, rfl⟩ := stream_suffix e
    rw [← makeResultStream_append] at e
    have e := makeResultStream_inj e
    refine ⟨.oneRtt, d, .inl ⟨x.headerByte, rest, e, hb, hl, rfl⟩, rfl, ?_, by rw [hl]; rfl, fun _ => by omega⟩
    rw [routeVal, if_neg (by decide)]; exact hd.symm
  | long x =>
    obtain ⟨bs, e, ⟨vb, d, s, rfl, hvl, hv, hd, hs, hif⟩, hb, hp⟩ := nextHeader_long_iff.mp h
    obtain ⟨rest, rfl⟩ := stream_suffix e
    rw [← makeResultStream_append] at e
    have e := makeResultStream_inj e
    have hk := packetKind_vn (v := x.version) hb
    refine ⟨packetKind x.headerByte x.version, d, .inr ⟨x.headerByte, vb, _, _, s, rest, x.version, e, hb, hvl, hv, hd, hs, ?_, rfl⟩,
      packetType_eq x hb, ?_, hd.symm, ?_⟩
    · intro h0; rw [if_neg h0] at hif; exact ⟨hif.2.1, hif.2.2.1⟩
    · by_cases h0 : x.version.toNat = 0
      · rw [if_pos h0] at hif
        rw [routeVal, if_pos (hk.mpr h0)]; exact hif.2.1
      · rw [if_neg h0] at hif
        rw [routeVal, if_neg (fun e => h0 (hk.mp e))]; exact hif.2.2.2.1.symm
    · intro h0
      rw [if_neg (fun e => h0 (hk.mpr e))] at hif
      exact hif.2.1

theorem malformed_header {data} (h : Malformed data) : ∃ e s', nextHeaderFromStream (makeResultStream data) = (.err e, s') := by
  have hp := nextHeader_noPanic (makeResultStream data)
  rcases hn : nextHeaderFromStream (makeResultStream data) with ⟨o, s'⟩
  rw [hn] at hp
  cases o with
  | ok hd =>
    obtain ⟨kind, d, ha, -⟩ := header_addressed hn
    exact absurd ⟨kind, d, ha⟩ h
  | err e => exact ⟨e, s', rfl⟩
  | panic w => cases hp

theorem addressed_short {data kind d} (h : Addressed data kind d) (hk : kind ≠ .versionNegotiation) : d.length ≤ 20 := by
  rcases h with ⟨_, _, _, _, h, _⟩ | ⟨first, vb, dl, sl, s, rest, v, _, hf, _, _, _, _, h, rfl⟩
  · omega
  · exact (h fun e => hk ((packetKind_vn hf).mpr e)).1

/-- A datagram has one kind and one destination. -/
theorem addressed_unique {data k1 d1 k2 d2} (h1 : Addressed data k1 d1) (h2 : Addressed data k2 d2) : k1 = k2 ∧ d1 = d2 := by
  rcases h1 with ⟨f, r, rfl, hf, hl, rfl⟩ | ⟨f, vb, dl, sl, s, r, v, rfl, hf, hvl, hv, hdl, hsl, -, rfl⟩
  · rcases h2 with ⟨f', r', e, -, hl', rfl⟩ | ⟨f', vb', dl', sl', s', r', v', e, hf', -⟩
    · simp only [List.cons_append, List.nil_append, List.cons.injEq] at e
      exact ⟨rfl, (List.append_inj e.2 (by omega)).1⟩
    · simp only [List.append_assoc, List.cons_append, List.nil_append, List.cons.injEq] at e
      rw [e.1] at hf; omega
  · rcases h2 with ⟨f', r', e, hf', hl', rfl⟩ | ⟨f', vb', dl', sl', s', r', v', e, hf', hvl', hv', hdl', hsl', -, rfl⟩
    · simp only [List.append_assoc, List.cons_append, List.nil_append, List.cons.injEq] at e
      rw [e.1] at hf; omega
    · simp only [List.append_assoc, List.cons_append, List.nil_append, List.cons.injEq] at e
      obtain ⟨rfl, e⟩ := e
      obtain ⟨rfl, e'⟩ := List.append_inj e (by omega)
      injection e' with e1 e'
      subst e1
      have hvv : v = v' := BitVec.eq_of_toNat_eq (by omega)
      exact ⟨by rw [hvv], (List.append_inj e' (by omega)).1⟩

theorem tableInsert_same (t k v) : tableInsert t k v k = some v := by simp [tableInsert]
theorem tableInsert_other {t k v k'} (h : k' ≠ k) : tableInsert t k v k' = t k' := by simp [tableInsert, h]
theorem tableRemove_same (t k) : tableRemove t k k = none := by simp [tableRemove]
theorem tableRemove_other {t k k'} (h : k' ≠ k) : tableRemove t k k' = t k' := by simp [tableRemove, h]

namespace Sock

theorem route_known {k : Sock} {d : Datagram} {kind id key x} (ha : Addressed d.data kind id) (hk : cidVal key = routeVal kind id)
    (hx : k.streams key = some x) :
    k.routeDatagram d = (.ok (), { k with streams := tableInsert k.streams key { x with queue := x.queue ++ [d] } }) := by
  obtain ⟨hd, s', e, -, hv, -⟩ := addressed_header ha
  have : hd.getDestinationId = key := cidVal_inj (hv.trans hk.symm)
  unfold routeDatagram
  simp only [e, this, hx]

theorem route_unknown {k : Sock} {d : Datagram} {kind id} (ha : Addressed d.data kind id)
    (hx : ∀ key, cidVal key = routeVal kind id → k.streams key = none) :
    k.routeDatagram d = (.err (.internalError "missing connection"), k) := by
  obtain ⟨hd, s', e, -, hv, -⟩ := addressed_header ha
  unfold routeDatagram
  simp only [e, hx _ hv]

theorem route_malformed {k : Sock} {d : Datagram} (hm : Malformed d.data) : ∃ e, k.routeDatagram d = (.err e, k) := by
  obtain ⟨e, s', he⟩ := malformed_header hm
  refine ⟨e, ?_⟩
  unfold routeDatagram
  simp only [he]

theorem isNew_addressed {k : Sock} {d : Datagram} {kind id key} (ha : Addressed d.data kind id) (hk : cidVal key = routeVal kind id) :
    k.isNewInitial d = .ok (decide (kind = .initial) && (k.streams key).isNone) := by
  obtain ⟨hd, s', e, ht, hv, -⟩ := addressed_header ha
  have : hd.getDestinationId = key := cidVal_inj (hv.trans hk.symm)
  unfold isNewInitial
  simp only [e, ht, this, Out.ok_bind]
  cases kind <;> rfl

theorem isNew_malformed {k : Sock} {d : Datagram} (hm : Malformed d.data) : k.isNewInitial d = .ok false := by
  obtain ⟨e, s', he⟩ := malformed_header hm
  unfold isNewInitial
  simp only [he]
  rfl

theorem recv_datagram (k : Sock) (raw : Bytes) (addr : Nat) :
    ∃ p, k.recvDatagram (.datagram raw addr) = (.ok ⟨raw.take RECV_BUFFER_LEN, addr⟩, { k with printed := p }) := by
  unfold recvDatagram
  by_cases hl : k.logTraffic = true
  · have hp := nextHeader_noPanic (makeResultStream (raw.take RECV_BUFFER_LEN))
    rcases hn : nextHeaderFromStream (makeResultStream (raw.take RECV_BUFFER_LEN)) with ⟨o, s'⟩
    rw [hn] at hp
    simp only [hl, if_true, hn]
    cases o with
    | ok a => exact ⟨_, rfl⟩
    | err e => exact ⟨_, rfl⟩
    | panic w => cases hp
  · refine ⟨k.printed, ?_⟩
    dsimp only
    rw [if_neg hl]

theorem newConnection_ok {P : Prims} (hP : PrimLaws P) {d : Datagram} {kind id key} (ha : Addressed d.data kind id)
    (hk : cidVal key = routeVal kind id) (h20 : id.length ≤ 20) :
    ∃ c, newConnectionFor P d = .ok c ∧ c.dcid = (key, id.length) ∧ c.scid = none ∧ c.version = .v1
      ∧ Connection.new P true .v1 key id.length = .ok c := by
  obtain ⟨hd, s', e, -, hv, hl⟩ := addressed_header ha
  have hid : hd.getDestinationId = key := cidVal_inj (hv.trans hk.symm)
  obtain ⟨c, hc⟩ := new_total P hP true .v1 key id.length h20
  refine ⟨c, ?_, ?_, ?_, ?_, hc⟩
  · unfold newConnectionFor
    rw [e]
    simp only [Out.unwrap, Out.ok_bind, hid, hl, hc]
  all_goals
    obtain ⟨_, _, _, _, _, _, rfl⟩ := new_ok' hc
    rfl

end Sock
end QuicSea
