import Verif.Props.Unprotected
import Verif.Props.ExactRouting
import Verif.Props.Local
/-
C147: what is cut off a datagram costs only packets at its end (RFC 9000 section 12.2; `recv_datagram` cuts datagrams off, C60).
-/
namespace Spec
open QuicSea

/-- The packets `qs` are the first ones of `ps`, except that the last may be a Version Negotiation packet with only the first of its versions, and then nothing follows it in `ps`
either. -/
def CutPackets (qs ps : List Packet) : Prop :=
  qs <+: ps ∨ ∃ rs v w, qs = rs ++ [.versionNegotiation v] ∧ ps = rs ++ [.versionNegotiation w] ∧ v.header = w.header ∧ v.supportedVersions <+: w.supportedVersions

def C147For (P : Prims) : Prop :=
  ∀ (bp bp' : Profile) (c : Connection), Connection.Reachable P bp c → ∀ (a b : Bytes) (ps qs : List Packet),
    (decodePackets bp' c (makeResultStream (a ++ b))).1 = .ok ps → (decodePackets bp' c (makeResultStream a)).1 = .ok qs → CutPackets qs ps
/-- C147: a connection after any history takes from the beginning of a datagram that it accepts no packets but the first ones of the datagram. -/
def C147Statement : Prop := ∀ P, PrimLaws P → C147For P
end Spec

namespace QuicSea
open Spec

theorem flatten_prefix {b : Bytes} : ∀ (gs hs : List Bytes), (∀ g ∈ gs, g.length = 4) → (∀ h ∈ hs, h.length = 4) → gs.flatten ++ b = hs.flatten → gs <+: hs
  | [], hs, _, _, _ => List.nil_prefix
  | g :: gs, [], h1, _, e => by
    have := congrArg List.length e
    have := h1 g List.mem_cons_self
    simp_all
  | g :: gs, h :: hs, h1, h2, e => by
    rw [List.flatten_cons, List.flatten_cons, List.append_assoc] at e
    obtain ⟨rfl, e2⟩ := List.append_inj e ((h1 g List.mem_cons_self).trans (h2 h List.mem_cons_self).symm)
    exact (List.prefix_cons_inj g).mpr (flatten_prefix gs hs (fun x hx => h1 x (List.mem_cons_of_mem _ hx)) (fun x hx => h2 x (List.mem_cons_of_mem _ hx)) e2)
theorem prefix_of_map {α β : Type} {f : α → β} (hf : ∀ x y, f x = f y → x = y) : ∀ {l m : List α}, l.map f <+: m.map f → l <+: m
  | [], _, _ => List.nil_prefix
  | x :: l, [], h => by cases List.prefix_nil.mp h
  | x :: l, y :: m, h => by
    rw [List.map_cons, List.map_cons, List.cons_prefix_cons] at h
    rw [hf x y h.1, List.prefix_cons_inj]
    exact prefix_of_map hf h.2

/-- Versions that are cut off a Version Negotiation packet. -/
theorem vn_cut {bp : Profile} {c : Connection} {a b : Bytes} {v : PacketVersionNegotiation} {p : Packet} {s s' : Stream}
    (ha : decodeNextPacket bp c (makeResultStream a) = (.ok (.versionNegotiation v), s)) (hab : decodeNextPacket bp c (makeResultStream (a ++ b)) = (.ok p, s')) :
    s = [] ∧ s' = [] ∧ ∃ w, p = .versionNegotiation w ∧ v.header = w.header ∧ v.supportedVersions <+: w.supportedVersions := by
  obtain ⟨hs, hp, hb, gs, e, hf, h128, h0, h4, hv⟩ := (C38_version_negotiation bp c _ _ v).mp ha
  have e := makeResultStream_inj e
  have hl : LongAt (makeResultStream (a ++ b)) v.header (makeResultStream (gs.flatten ++ b)) :=
    ⟨hb, by rw [e, List.append_assoc, makeResultStream_append], hf, h128⟩
  have hk : p.kind = .versionNegotiation := by
    rw [decoded_kind (longAt_next hl) hab]
    show packetKind v.header.headerByte v.header.version = _
    unfold packetKind
    rw [if_neg (by omega), if_pos h0]
  cases p with
  | versionNegotiation w =>
    obtain ⟨hs', hp', hb', gs', e', hf', h128', h0', h4', hv'⟩ := (C38_version_negotiation bp c _ _ w).mp hab
    have hl' : LongAt (makeResultStream (a ++ b)) w.header (makeResultStream gs'.flatten) := ⟨hb', by rw [e', makeResultStream_append], hf', h128'⟩
    have q := longAt_next hl
    rw [longAt_next hl'] at q
    obtain ⟨q1, q2⟩ := Prod.mk.inj q
    have q1 := PacketHeader.long.inj (Out.ok.inj q1)
    refine ⟨hs, hs', w, rfl, ?_, ?_⟩
    · have kinds : ∀ h : LongPacketHeader, 128 ≤ h.headerByte.toNat → h.version.toNat = 0 → h.isProtected = false →
          { h with isProtected := protectable (packetKind h.headerByte h.version) } = h := by
        intro h g1 g2 g3
        have : packetKind h.headerByte h.version = .versionNegotiation := by
          unfold packetKind
          rw [if_neg (by omega), if_pos g2]
        rw [this]
        cases h
        cases g3
        rfl
      rw [kinds _ h128' h0' hp', kinds _ h128 h0 hp] at q1
      exact q1.symm
    · have := flatten_prefix gs gs' h4 h4' (makeResultStream_inj q2).symm
      have := this.map beNat
      rw [hv, hv'] at this
      exact prefix_of_map (fun x y h => BitVec.eq_of_toNat_eq h) this
  | _ => cases hk

theorem packets_uncons {bp : Profile} {c : Connection} {s : Stream} {p : Packet} {ps : List Packet} (h : (decodePackets bp c s).1 = .ok (p :: ps)) :
    ∃ s', decodeNextPacket bp c s = (.ok p, s') ∧ (decodePackets bp c s').1 = .ok ps := by
  have hs : s ≠ [] := by
    rintro rfl
    unfold decodePackets at h
    cases h
  rw [decodePackets_eq _ _ _ hs] at h
  obtain ⟨x, s1, h1, h2⟩ := Rd.bind_eq_ok (Prod.ext h rfl)
  obtain ⟨y, s2, h3, h4⟩ := Rd.bind_eq_ok h2
  cases h4
  exact ⟨s1, h1, by rw [h3]⟩
theorem packets_ok_nil {bp : Profile} {c : Connection} {s : Stream} (h : (decodePackets bp c s).1 = .ok []) : s = [] := by
  refine Decidable.byContradiction fun hs => ?_
  rw [decodePackets_eq _ _ _ hs] at h
  obtain ⟨x, s1, h1, h2⟩ := Rd.bind_eq_ok (Prod.ext h rfl)
  obtain ⟨y, s2, h3, h4⟩ := Rd.bind_eq_ok h2
  cases h4

/-- C147. -/
theorem C147_all : C147Statement := by
  intro P hP bp bp' c hr a b ps qs h hq
  induction qs generalizing a ps with
  | nil => exact .inl List.nil_prefix
  | cons q qs ih =>
    obtain ⟨s1, h1, h2⟩ := packets_uncons hq
    cases ps with
    | nil =>
      have : a ++ b = [] := makeResultStream_inj (packets_ok_nil h)
      rw [(List.append_eq_nil_iff.mp this).1] at hq
      unfold decodePackets at hq
      cases hq
    | cons p ps =>
      obtain ⟨s2, h3, h4⟩ := packets_uncons h
      rcases C34_never_decoded P hP bp bp' c hr _ _ _ h1 with k | k
      · obtain ⟨out, e, r⟩ := decodeNext_local (reachable_keysOrNone hP hr) (by cases q <;> first | rfl | cases k) h1
        obtain ⟨a', rfl⟩ := stream_suffix e
        have e2 : makeResultStream (a ++ b) = makeResultStream out ++ makeResultStream (a' ++ b) := by
          rw [makeResultStream_append, e, makeResultStream_append, List.append_assoc]
        rw [e2, r] at h3
        obtain ⟨h5, h6⟩ := Prod.mk.inj h3
        cases h5
        rw [← h6] at h4
        rcases ih a' ps h4 h2 with i | ⟨rs, v, w, e1, e2, i⟩
        · exact .inl ((List.prefix_cons_inj q).mpr i)
        · exact .inr ⟨q :: rs, v, w, by rw [e1]; rfl, by rw [e2]; rfl, i⟩
      · cases q with
        | versionNegotiation v =>
          obtain ⟨rfl, rfl, w, rfl, i⟩ := vn_cut h1 h3
          have : ∀ l, (decodePackets bp' c []).1 = .ok l → l = [] := by
            intro l h
            unfold decodePackets at h
            cases h
            rfl
          cases this _ h2
          cases this _ h4
          exact .inr ⟨[], v, w, rfl, rfl, i⟩
        | _ => cases k

/-- C147 for the datagrams that the socket cuts off (C60): packets of what is left are the first ones of the datagram sent. -/
theorem C147_received (P : Prims) (hP : PrimLaws P) (bp bp' : Profile) (c : Connection) (hr : Connection.Reachable P bp c) (k : Sock) (raw : Bytes) (addr : Nat) (d : Datagram)
    (hd : (k.recvDatagram (.datagram raw addr)).1 = .ok d) (ps qs : List Packet) (h : (decodePackets bp' c (makeResultStream raw)).1 = .ok ps)
    (hq : (decodePackets bp' c (makeResultStream d.data)).1 = .ok qs) : CutPackets qs ps := by
  have hpre : d.data <+: raw := by
    by_cases hl : raw.length ≤ 4096
    · rw [(C60_exact k raw addr).mpr hl] at hd
      cases hd
      exact List.prefix_rfl
    · obtain ⟨d', e1, -, -, e2⟩ := C60_truncated k raw addr (by omega)
      rw [hd] at e1
      cases e1
      exact e2
  obtain ⟨b, e⟩ := hpre
  exact C147_all P hP bp bp' c hr d.data b ps qs (by rw [e]; exact h) hq

/-- Two Initial packets, of which the second is cut off; and an Initial packet and a Version Negotiation packet that loses one of its two versions. -/
example : Connection.Reachable toy .debug exConn ∧
    (okPackets (decodePackets .debug exConn (makeResultStream (exOut 4 ++ exSealed 0xc3 [1]))).1).length = 2 ∧
    okPackets (decodePackets .debug exConn (makeResultStream (exOut 4))).1 = (okPackets (decodePackets .debug exConn (makeResultStream (exOut 4 ++ exSealed 0xc3 [1]))).1).take 1 ∧
    (okPackets (decodePackets .debug exConn (makeResultStream (exSealed 0xc3 [1] ++ exVersions))).1).length = 2 ∧
    (okPackets (decodePackets .debug exConn (makeResultStream ((exSealed 0xc3 [1] ++ exVersions).dropLast.dropLast.dropLast.dropLast))).1).length = 2 ∧
    (decodePackets .debug exConn (makeResultStream (exSealed 0xc3 [1] ++ exVersions).dropLast)).1.isOk = false :=
  ⟨exConn_reachable, by decide +kernel⟩

end QuicSea
