import Verif.Props.Concurrent
import Verif.Props.ExactRouting
/-
C111: an unreliable network. Datagrams are lost, repeated and reordered on their way, and mixed with those of others.
-/
namespace QuicSea
open Spec Sock

/-! ## C111 -/

/-- The connection `key` gets this datagram: by its id or, for Version Negotiation packets, by the id 0 (C43). -/
def GoesTo (key : U160) (d : Datagram) : Prop := IsFor key d ∨ key = .zero ∧ ∃ id, Addressed d.data .versionNegotiation id

theorem goesTo_header {key : U160} {d : Datagram} (h : GoesTo key d) :
    ∃ hd s', nextHeaderFromStream (makeResultStream d.data) = (.ok hd, s') ∧ hd.getDestinationId = key := by
  rcases h with ⟨kind, id, ha, hv, hk⟩ | ⟨rfl, id, ha⟩
  · obtain ⟨hd, s', e, -, hr, -⟩ := addressed_header ha
    exact ⟨hd, s', e, cidVal_inj (hr.trans ((show routeVal kind id = beNat id from if_neg hv).trans hk.symm))⟩
  · obtain ⟨hd, s', e, -, hr, -⟩ := addressed_header ha
    exact ⟨hd, s', e, cidVal_inj (hr.trans (cidVal_zero.symm : 0 = _))⟩

/-- What a datagram yields is a matter of its bytes and of its connection. -/
theorem goesTo_decodes {k : Sock} {key : U160} {d : Datagram} {x : StreamState} (bp : Profile) (h : GoesTo key d) (hx : k.streams key = some x) :
    (k.packetsFromDatagram bp d).1 = (decodePackets bp x.connection (makeResultStream d.data)).1 := by
  obtain ⟨hd, s', e, rfl⟩ := goesTo_header h
  unfold packetsFromDatagram
  simp only [e, hx]
  cases hr : (decodePackets bp x.connection (makeResultStream d.data)).1 <;> rfl

/-- C111, any schedule of any calls of any threads: whatever happens after a moment at which a connection is in the table, short of dropping it, every datagram
for it, hostile or not, yields what it would have yielded at that moment. So it does not matter which datagrams came before it, how often, or in which order. -/
theorem C111_any_time {P : Prims} {bp : Profile} {tr s tr' s'} (hr : Sys.Run P bp Sys.init tr s) (hr' : Sys.Run P bp s tr' s') (key : U160) (x : StreamState)
    (hx : s.sock.streams key = some x) (hd : ¬ Dropped key tr') (bp' : Profile) (d : Datagram) (hg : GoesTo key d) :
    (s'.sock.packetsFromDatagram bp' d).1 = (s.sock.packetsFromDatagram bp' d).1 := by
  obtain ⟨more, hm⟩ := C45_survives hr hr' key x hx hd
  rw [goesTo_decodes bp' hg hm, goesTo_decodes bp' hg hx]

theorem mem_routedTo {key : U160} {d : Datagram} {tr : List (Nat × Label)} (h : d ∈ routedTo key tr) : ∃ t, (t, Label.sent key d) ∈ tr := by
  induction tr with
  | nil => cases h
  | cons e tr ih =>
    have step : d ∈ routedTo key tr → ∃ t, (t, Label.sent key d) ∈ e :: tr := fun h => (ih h).imp fun _ h => List.mem_cons_of_mem _ h
    obtain ⟨t, l⟩ := e
    cases l <;> simp only [routedTo] at h
    case sent key' d' =>
      split at h
      · rename_i e
        subst e
        rcases List.mem_cons.mp h with rfl | h
        · exact ⟨t, List.mem_cons_self⟩
        · exact step h
      · exact step h
    all_goals exact step h

/-- C111, any schedule: for every connection in the table of every reachable state, decoding its queue yields, datagram by datagram and in the order in which they
were routed, what each of them yields on the connection as it was created. -/
theorem C111_queue_decodes {P : Prims} {bp : Profile} {tr s} (hr : Sys.Run P bp Sys.init tr s) (key : U160) (x : StreamState) (hx : s.sock.streams key = some x)
    (bp' : Profile) :
    ∃ tr1 t x0 tr2 c dcid len, tr = tr1 ++ (t, Label.registered key x0) :: tr2 ∧ ¬ Dropped key tr2 ∧ Connection.new P true .v1 dcid len = .ok c ∧
      x.queue = routedTo key tr2 ∧
      x.queue.map (fun d => (s.sock.packetsFromDatagram bp' d).1) = (routedTo key tr2).map fun d => (decodePackets bp' c (makeResultStream d.data)).1 := by
  obtain ⟨tr1, s1, t, x0, s2, tr2, e, h1, h2, h3, h4, h5, h6, h7, h8⟩ := C44_since_created hr key x hx
  obtain ⟨-, -, c, dcid, len, hc, hxc⟩ := C46_own_id hr key x hx
  have hq : x.queue = routedTo key tr2 := by rw [h8]
  refine ⟨tr1, t, x0, tr2, c, dcid, len, e, h7, hc, hq, ?_⟩
  rw [hq]
  refine List.map_congr_left fun d hd => ?_
  obtain ⟨t', ht⟩ := mem_routedTo hd
  have hg : GoesTo key d := C44_destination hr t' key d (by rw [e]; exact List.mem_append_right _ (List.mem_cons_of_mem _ ht))
  rw [goesTo_decodes bp' hg hx, hxc]
  exact congrArg Prod.fst (C71_history_independent .debug bp' c [.setScid key 8] (makeResultStream d.data))

/-! ### A client over such a network -/

/-- `out` is an Initial packet of RFC 9000 and RFC 9001 with the contents `p`, under the keys `kc`, sent to the id with value `v`, with a packet number of four
bytes and a payload the frame parser can read. -/
def ClientPacket (P : Prims) (kc : Keys) (v : Nat) (out : Bytes) (p : PacketInitial) : Prop :=
  cidVal p.header.destinationConnectionId = v ∧ p.header.isProtected = false ∧ p.packetNumberBytes.length = 4 ∧ beNat p.packetNumberBytes = p.packetNumber.toNat ∧
  ∃ payload, InitialWire P kc p.header p.token p.packetNumberBytes p.packetNumber.toNat payload out ∧
    (deserializeFrames (makeResultStream payload)).1 = .ok p.packetPayload

/-- `raw` is a datagram of such packets, one or more, with the contents `ps`, that fits the receive buffer. -/
def ClientDatagram (P : Prims) (kc : Keys) (v : Nat) (raw : Bytes) (ps : List Packet) : Prop :=
  ∃ l : List (Bytes × PacketInitial), l ≠ [] ∧ raw = (l.map Prod.fst).flatten ∧ raw.length ≤ 4096 ∧ ps = l.map (fun x => .initial x.2) ∧
    ∀ x ∈ l, ClientPacket P kc v x.1 x.2

theorem client_isFor {P : Prims} (hP : PrimLaws P) {kc : Keys} (hiv : kc.iv.length = 12) {key : U160} {raw : Bytes} {ps : List Packet}
    (h : ClientDatagram P kc (cidVal key) raw ps) (addr : Nat) : IsFor key (seen raw addr) := by
  obtain ⟨l, hl, rfl, hlen, -, hp⟩ := h
  cases l with
  | nil => exact absurd rfl hl
  | cons y l =>
    obtain ⟨hto, hpr, -, -, payload, hw, -⟩ := hp y List.mem_cons_self
    obtain ⟨hb, tl, lb, w1, w2, w3, w4, w5, w6⟩ := hw
    obtain ⟨m, ct, tag, hout, -⟩ := protected_facts hP hiv w6
    have e1 := nextHeader_wire w1 (by rw [w2]; rfl) (by rw [w2]; decide) m
      (tl ++ y.2.token ++ lb ++ (y.2.packetNumberBytes.zipWith (· ^^^ ·) (maskList m)) ++ ct ++ tag ++ (l.map Prod.fst).flatten) []
    have e2 : ∃ s', nextHeaderFromStream (makeResultStream (((y :: l).map Prod.fst).flatten)) = (.ok (.long (protHeader y.2.header m)), s') := by
      rw [List.map_cons, List.flatten_cons, hout]
      simp only [List.append_assoc, List.append_nil, List.cons_append] at e1 ⊢
      exact ⟨_, e1⟩
    obtain ⟨s', e2⟩ := e2
    obtain ⟨kind, id, g1, g2, g3, -⟩ := header_addressed e2
    obtain ⟨_, _, _, hlong, _⟩ := nextHeader_long_iff.mp e2
    have g2' : (PacketHeader.long (protHeader y.2.header m)).getPacketType = .ok .initial :=
      (packetType_eq _ hlong).trans (congrArg Out.ok ((kind_xor _ _ _).trans w2))
    rw [g2'] at g2
    cases g2
    refine ⟨.initial, id, ?_, by decide, ?_⟩
    · unfold seen
      rw [List.take_of_length_le hlen]
      exact g1
    · rw [show routeVal .initial id = beNat id from if_neg (by decide)] at g3
      exact hto.symm.trans g3

theorem forConn_flagged {β : Type} (key : U160) (l : List ((Bytes × Nat) × Option β)) (h : ∀ a ∈ l, IsFor key (seen a.1.1 a.1.2) ↔ a.2.isSome = true)
    (hs : ∀ a ∈ l, a.2.isSome = true → a.1.1.length ≤ 4096) :
    forConn key (l.map ((fun r => seen r.1 r.2) ∘ Prod.fst)) = (l.filter (fun a => a.2.isSome)).map (fun a => (⟨a.1.1, a.1.2⟩ : Datagram)) := by
  induction l with
  | nil => rfl
  | cons a l ih =>
    have ih := ih (fun b hb => h b (List.mem_cons_of_mem _ hb)) (fun b hb => hs b (List.mem_cons_of_mem _ hb))
    have h1 := h a List.mem_cons_self
    have s1 := hs a List.mem_cons_self
    obtain ⟨⟨raw, addr⟩, o⟩ := a
    unfold forConn at ih ⊢
    cases o with
    | some b =>
      have e : seen raw addr = ⟨raw, addr⟩ := by unfold seen; rw [List.take_of_length_le (s1 rfl)]
      have hi : IsFor key (seen raw addr) := h1.mpr rfl
      rw [e] at hi
      simpa [e, hi] using ih
    | none =>
      have hi : ¬ IsFor key (seen raw addr) := fun h => by cases h1.mp h
      simpa [hi] using ih
theorem map_flagged {α β : Type} {f : α × Option β → Out β} (l : List (α × Option β)) (h : ∀ a ∈ l, ∀ b, a.2 = some b → f a = .ok b) :
    (l.filter (fun a => a.2.isSome)).map f = (l.filterMap (fun a => a.2)).map .ok := by
  induction l with
  | nil => rfl
  | cons a l ih =>
    have ih := ih fun b hb => h b (List.mem_cons_of_mem _ hb)
    have h1 := h a List.mem_cons_self
    obtain ⟨x, o⟩ := a
    cases o with
    | none => simpa using ih
    | some b => simp [ih, h1 b rfl]

/-- C111, a client and everybody else: a client's first Initial has been accepted. Then any sequence of datagrams arrives; each is one the client has sent to the
id the server chose (with these contents), or is for another connection. Which of the client's datagrams arrive, how often and in which order is arbitrary.
All are routed, and decoding the connection's queue yields exactly the packets of the client's datagrams that arrived, as often and in the order they arrived. -/
theorem C111_client (P : Prims) (hP : PrimLaws P) (bp : Profile) (k k' : Sock) (raw : Bytes) (addr : Nat) (net net' : List NetEvent) (v : U32)
    (d s : Bytes) (srcId : U64) (rng rng' : List U64) (r : Io U160) (ho : OpensWith (seen raw addr).data v d s)
    (hn : ∀ key, cidVal key = beNat d → k.streams key = none) (hf : ∀ key, cidVal key = srcId.toNat → k.streams key = none)
    (h : k.accept P (.datagram raw addr :: net) (srcId :: rng) = (r, k', net', rng'))
    (kc : Keys) (hkc : InitialKeys P false d kc) (arrivals : List ((Bytes × Nat) × Option (List Packet)))
    (ha : ∀ a ∈ arrivals, match a.2 with
      | some ps => ClientDatagram P kc srcId.toNat a.1.1 ps
      | none => ∃ key, cidVal key ≠ srcId.toNat ∧ IsFor key (seen a.1.1 a.1.2) ∧ (k.streams key).isSome) (net2 : List NetEvent) :
    ∃ (key : U160) (k2 : Sock) (x : StreamState), cidVal key = srcId.toNat ∧
      k'.recvNewInitialDatagram (arrivals.map (fun a => .datagram a.1.1 a.1.2) ++ net2) = k2.recvNewInitialDatagram net2 ∧
      k2.streams key = some x ∧
      x.queue = (arrivals.filter (fun a => a.2.isSome)).map (fun a => ⟨a.1.1, a.1.2⟩) ∧
      x.queue.map (fun dg => (k2.packetsFromDatagram bp dg).1) = (arrivals.filterMap (fun a => a.2)).map .ok := by
  obtain ⟨key, c, dcid, a1, a2, a3, a4, a5⟩ := accepted hP (opens_addressed ho) hn hf h
  obtain ⟨cid, kl, kr, b1, b2, b3, hc⟩ := new_ok' a3
  have hcid : cid = d := by
    obtain ⟨l1, l2⟩ := toVarBytes_ok b1
    refine beNat_inj l1 ?_
    rw [l2, a2, Nat.mod_eq_of_lt (beNat_lt d)]
  subst hcid
  have e := initialKeys_unique hkc b3
  subst e
  have hreach : Connection.Reachable P bp { c with scid := some (key, 8) } := ⟨true, .v1, dcid, _, c, [.setScid key 8], a3, rfl⟩
  have hk : ({ c with scid := some (key, 8) } : Connection).remoteSecrets .initial = .ok (secretsOf P kc) := by rw [hc]; rfl
  have hiv := (reachable_iv hP hreach hk).2.1
  -- where each arrival goes
  have hfor : ∀ a ∈ arrivals, IsFor key (seen a.1.1 a.1.2) ↔ a.2.isSome = true := by
    intro a hm
    have := ha a hm
    cases hps : a.2 with
    | some ps =>
      rw [hps] at this
      exact ⟨fun _ => rfl, fun _ => client_isFor hP hiv (a1 ▸ this) _⟩
    | none =>
      rw [hps] at this
      obtain ⟨key', hne, ⟨kind', id', ha', -, hk'⟩, -⟩ := this
      refine ⟨?_, fun h => (by cases h)⟩
      rintro ⟨kind2, id2, ha2, -, hk2⟩
      obtain ⟨-, e⟩ := addressed_unique ha' ha2
      exact absurd (hk'.trans (e ▸ hk2.symm) |>.trans a1) hne
  have hknown : ∀ q ∈ arrivals.map Prod.fst, ∃ key', IsFor key' (seen q.1 q.2) ∧ (k'.streams key').isSome := by
    intro q hq
    obtain ⟨a, hm, rfl⟩ := List.mem_map.mp hq
    have := ha a hm
    cases hps : a.2 with
    | some ps => exact ⟨key, (hfor a hm).mpr (by rw [hps]; rfl), by rw [a4]; rfl⟩
    | none =>
      rw [hps] at this
      obtain ⟨key', hne, h1, h2⟩ := this
      exact ⟨key', h1, by rw [a5 key' (fun e => hne (e ▸ a1))]; exact h2⟩
  obtain ⟨k2, q1, -, q3, -⟩ := C49_known_partial (arrivals.map Prod.fst) k' hknown net2
  rw [List.map_map] at q1
  have hx := q3 key _ a4
  have hqueue : forConn key ((arrivals.map Prod.fst).map fun r => seen r.1 r.2) =
      (arrivals.filter (fun a => a.2.isSome)).map (fun a => (⟨a.1.1, a.1.2⟩ : Datagram)) := by
    rw [List.map_map]
    exact forConn_flagged key arrivals hfor fun a hm hs => by
      have := ha a hm
      cases hps : a.2 with
      | some ps =>
        rw [hps] at this
        obtain ⟨_, _, _, hlen, _⟩ := this
        exact hlen
      | none =>
        rw [hps] at hs
        cases hs
  refine ⟨key, k2, _, a1, q1, hx, by rw [List.nil_append]; exact hqueue, ?_⟩
  rw [List.nil_append, hqueue, List.map_map]
  refine map_flagged arrivals fun a hm ps hps => ?_
  have := ha a hm
  rw [hps] at this
  have hg := client_isFor hP hiv (a1 ▸ this) a.1.2
  obtain ⟨l, hl, e, hlen, rfl, hp⟩ := this
  have hseen : seen a.1.1 a.1.2 = ⟨a.1.1, a.1.2⟩ := by unfold seen; rw [List.take_of_length_le hlen]
  rw [hseen] at hg
  show (k2.packetsFromDatagram bp ⟨a.1.1, a.1.2⟩).1 = _
  rw [goesTo_decodes bp (.inl hg) hx]
  have := C36_any_packets bp { c with scid := some (key, 8) } (l.map fun y => (y.1, Packet.initial y.2)) (by
    intro y hy
    obtain ⟨z, hz, rfl⟩ := List.mem_map.mp hy
    obtain ⟨-, hpr, h4, hv, payload, hw, hfs⟩ := hp z hz
    exact C32_four_bytes_partial P hP bp _ hreach kc hk z.2.header hpr z.2.token z.2.packetNumberBytes payload z.1 z.2.packetNumber _ hw h4 hv hfs)
  simp only [List.map_map, Function.comp_def] at this
  rw [← e] at this
  rw [this]

/-- The hypotheses are met: the second packet of the client of `exOpening`, alone in a datagram. -/
theorem exFollow_datagram : ∃ kc raw, InitialKeys toy false [0, 0, 0, 0, 0, 0, 0, 5] kc ∧ ClientDatagram toy kc (7 : U64).toNat raw [.initial exFollow] := by
  obtain ⟨c, hc⟩ := new_total toy toy_laws false .v1 ⟨0, 5⟩ 8 (by decide)
  obtain ⟨cid, kl, kr, b1, b2, b3, e0⟩ := new_ok' hc
  have hk : c.localSecrets .initial = .ok (secretsOf toy kl) := by rw [e0]; rfl
  have e : cid = [0, 0, 0, 0, 0, 0, 0, 5] := by
    obtain ⟨l1, l2⟩ := toVarBytes_ok b1
    exact beNat_inj l1 (l2.trans (by decide))
  subst e
  obtain ⟨-, h2, h3⟩ := C57_initial_any toy toy_laws _ kl (initialKeys_lens toy_laws b2) hk exFollow (by unfold LongOk; decide +kernel) rfl (by decide +kernel)
    (by decide +kernel) (by decide +kernel) [6, 0, 3, 1, 2, 3, 1] (by decide +kernel) (by decide) (by decide)
  obtain ⟨out, ho⟩ := h2.mpr (by decide)
  have hlen : out.length ≤ 4096 := by
    have : (match Connection.new toy false .v1 ⟨0, 5⟩ 8 with
      | .ok c => (match exFollow.serialize c with | .ok out => decide (out.length ≤ 4096) | _ => true)
      | _ => true) = true := by decide +kernel
    rw [hc] at this
    simp only [ho] at this
    exact of_decide_eq_true this
  exact ⟨kl, out, b2, [(out, exFollow)], by simp, by simp, hlen, rfl, by
    intro x hx
    cases List.mem_singleton.mp hx
    have g1 : cidVal exFollow.header.destinationConnectionId = (7 : U64).toNat := by decide +kernel
    have g2 : beNat exFollow.packetNumberBytes = exFollow.packetNumber.toNat := by decide +kernel
    have g3 : (deserializeFrames (makeResultStream [6, 0, 3, 1, 2, 3, 1])).1 = .ok exFollow.packetPayload := by decide +kernel
    exact ⟨g1, rfl, rfl, g2, _, h3 out ho, g3⟩⟩
/-- Computed: two datagrams of that client arrive in the wrong order, the later one twice, with a datagram for another connection in between. -/
def exLater : PacketInitial := { exFollow with packetNumber := 3, packetNumberBytes := [0, 0, 0, 3], packetPayload := [.ping, .padding, .ping] }
example : (match (do
      let c ← Connection.new toy false .v1 ⟨0, 5⟩ 8
      let o1 ← exFollow.serialize c
      let o2 ← exLater.serialize c
      let k : Sock := { Sock.bind with streams := fun key => if key = .ofU64 6 then some (.fromConnection exRouteConn) else none }
      let k' := (k.accept toy [.datagram exOpening 1] [7]).2.1
      let r := k'.recvNewInitialDatagram [.datagram o2 3, .datagram [0x43, 0, 0, 0, 0, 0, 0, 0, 6, 1] 9, .datagram o1 4, .datagram o2 5]
      pure (decide (r.1 = .blocked ∧ (r.2.1.streams (.ofU64 7)).map (fun x => x.queue.map fun d => (r.2.1.packetsFromDatagram .debug d).1) =
        some [.ok [.initial exLater], .ok [.initial exFollow], .ok [.initial exLater]])) : Out Bool) with
    | .ok b => b
    | _ => false) = true := by decide +kernel

end QuicSea
