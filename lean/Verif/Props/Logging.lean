import Verif.Props.Routing
/-
C92: the logging switch takes effect. The public switch does not; the internal one does.
-/
namespace Spec
open QuicSea

/-- The datagrams among network events, as received. -/
def received : List NetEvent → List Bytes
  | [] => []
  | .datagram raw _ :: net => raw.take 4096 :: received net
  | .ioError :: net => received net

/-- A line of the log reports a datagram: the type and destination id of its first packet, or that it has no header. -/
def Reports (data : Bytes) : LogLine → Prop
  | .header h =>
    (∀ kind id, Addressed data kind id → ∃ hd, h = .ok hd ∧ hd.getPacketType = .ok kind ∧ cidVal hd.getDestinationId = routeVal kind id)
    ∧ (Malformed data → ∃ e, h = .err e)
  | .packets _ => False

/-- One line for each datagram, in order. -/
inductive Lines : List Bytes → List LogLine → Prop where
  | nil : Lines [] []
  | cons {d l ds ls} : Reports d l → Lines ds ls → Lines (d :: ds) (l :: ls)

/-- The log that the calls of a history ought to give: nothing while the switch is off; while it is on, a line for each datagram
taken from the network and one for each list of packets decoded. -/
inductive LogOf : Bool → List (SockOp × SockRes) → List LogLine → Prop where
  | nil {b} : LogOf b [] []
  | switch {b f r h ls} : LogOf f h ls → LogOf b ((.setLog f, r) :: h) ls
  | off {op r h ls} : (∀ f, op ≠ .setLog f) → LogOf false h ls → LogOf false ((op, r) :: h) ls
  | accept {used net rng r rng' h l1 l2} : Lines (received used) l1 → LogOf true h l2 →
      LogOf true ((.accept (used ++ net) rng, .accepted r net rng') :: h) (l1 ++ l2)
  | decoded {d ps h ls} : LogOf true h ls → LogOf true ((.packets d, .decoded (.ok ps)) :: h) (.packets ps :: ls)
  | notDecoded {d r h ls} : (∀ ps, r ≠ .ok ps) → LogOf true h ls → LogOf true ((.packets d, .decoded r) :: h) ls
  | route {d r h ls} : LogOf true h ls → LogOf true ((.route d, r) :: h) ls
  | drop {id r h ls} : LogOf true h ls → LogOf true ((.drop id, r) :: h) ls

end Spec

namespace QuicSea
open Spec Sock
variable {P : Prims} {bp : Profile}

theorem _root_.Spec.Lines.append {d1 d2 l1 l2} (h1 : Lines d1 l1) (h2 : Lines d2 l2) : Lines (d1 ++ d2) (l1 ++ l2) := by
  induction h1 with
  | nil => exact h2
  | cons h _ ih => exact .cons h ih

theorem received_append (a b : List NetEvent) : received (a ++ b) = received a ++ received b := by
  induction a with
  | nil => rfl
  | cons e a ih => cases e <;> simp [received, ih]

/-- The header read from a datagram reports it. -/
theorem header_reports (data : Bytes) : Reports data (.header (nextHeaderFromStream (makeResultStream data)).1) := by
  refine ⟨fun kind id h => ?_, fun h => ?_⟩
  · obtain ⟨hd, s', e, ht, hv, -⟩ := addressed_header h
    exact ⟨hd, by rw [e], ht, hv⟩
  · obtain ⟨e, s', h'⟩ := malformed_header h
    exact ⟨e, by rw [h']⟩

/-- What one call prints. -/
def Prints (k k' : Sock) (ls : List LogLine) : Prop := k'.logTraffic = k.logTraffic ∧ k'.printed = k.printed ++ ls

theorem Prints.refl (k : Sock) : Prints k k [] := ⟨rfl, by simp⟩
theorem Prints.trans {a b c : Sock} {l1 l2} (h1 : Prints a b l1) (h2 : Prints b c l2) : Prints a c (l1 ++ l2) :=
  ⟨h2.1.trans h1.1, by rw [h2.2, h1.2, List.append_assoc]⟩

theorem recv_prints (k : Sock) (e : NetEvent) :
    ∃ ls, Prints k (k.recvDatagram e).2 ls ∧ (k.logTraffic = true → Lines (received [e]) ls) ∧ (k.logTraffic = false → ls = []) := by
  cases e with
  | ioError => exact ⟨[], .refl k, fun _ => .nil, fun _ => rfl⟩
  | datagram raw addr =>
    unfold recvDatagram
    have hr := header_reports (raw.take RECV_BUFFER_LEN)
    have hp := nextHeader_noPanic (makeResultStream (raw.take RECV_BUFFER_LEN))
    dsimp only
    split
    · rename_i hl
      split
      · rename_i w he
        rw [he] at hp; cases hp
      · refine ⟨[_], ⟨rfl, rfl⟩, fun _ => .cons hr .nil, fun h => ?_⟩
        rw [hl] at h; cases h
    · rename_i hl
      exact ⟨[], .refl k, fun h => absurd h hl, fun _ => rfl⟩

theorem route_prints (k : Sock) (d : Datagram) : Prints k (k.routeDatagram d).2 [] := by
  unfold routeDatagram
  split
  · dsimp only
    split
    · exact ⟨rfl, by simp⟩
    · exact .refl k
  · exact .refl k
  · exact .refl k

theorem loop_prints (net : List NetEvent) (k : Sock) :
    ∃ used ls, net = used ++ (k.recvNewInitialDatagram net).2.2 ∧ Prints k (k.recvNewInitialDatagram net).2.1 ls
      ∧ (k.logTraffic = true → Lines (received used) ls) ∧ (k.logTraffic = false → ls = []) := by
  induction net generalizing k with
  | nil => exact ⟨[], [], rfl, .refl k, fun _ => .nil, fun _ => rfl⟩
  | cons e net ih =>
    obtain ⟨l1, h1, h2, h3⟩ := recv_prints k e
    unfold recvNewInitialDatagram
    rcases g : k.recvDatagram e with ⟨o, k1⟩
    rw [g] at h1
    have one : ∃ used ls, e :: net = used ++ net ∧ Prints k k1 ls
      ∧ (k.logTraffic = true → Lines (received used) ls) ∧ (k.logTraffic = false → ls = []) := ⟨[e], l1, rfl, h1, h2, h3⟩
    cases o with
    | ok d =>
      dsimp only
      split
      · exact one
      · have hr := route_prints k1 d
        rcases gr : k1.routeDatagram d with ⟨o2, k2⟩
        rw [gr] at hr
        have one' : ∃ used ls, e :: net = used ++ net ∧ Prints k k2 ls
          ∧ (k.logTraffic = true → Lines (received used) ls) ∧ (k.logTraffic = false → ls = []) :=
            ⟨[e], l1, rfl, by simpa using h1.trans hr, h2, h3⟩
        cases o2 with
        | ok u =>
          obtain ⟨used, ls, e1, p1, q1, q2⟩ := ih k2
          have hf : k2.logTraffic = k.logTraffic := by rw [hr.1, h1.1]
          refine ⟨e :: used, l1 ++ ls, by dsimp only; rw [List.cons_append, ← e1], ?_, fun h => ?_, fun h => ?_⟩
          · have := (h1.trans hr).trans p1
            simpa using this
          · have : received (e :: used) = received [e] ++ received used := received_append [e] used
            rw [this]
            exact (h2 h).append (q1 (hf.trans h))
          · rw [h3 h, q2 (hf.trans h)]; rfl
        | err x => exact one'
        | panic w => exact one'
      · exact one
      · exact one
    | ioErr => exact one
    | panic w => exact one
    | blocked => exact one

theorem register_prints (rng : List U64) (k : Sock) (x : StreamState) : Prints k (k.register x rng).2.1 [] := by
  induction rng with
  | nil => exact .refl k
  | cons v rng ih =>
    unfold register
    dsimp only
    split
    · exact ⟨rfl, by simp⟩
    · exact ih

theorem accept_prints (k : Sock) (net : List NetEvent) (rng : List U64) :
    ∃ used ls, net = used ++ (k.accept P net rng).2.2.1 ∧ Prints k (k.accept P net rng).2.1 ls
      ∧ (k.logTraffic = true → Lines (received used) ls) ∧ (k.logTraffic = false → ls = []) := by
  obtain ⟨used, ls, e, p, h1, h2⟩ := loop_prints net k
  unfold accept
  rcases g : k.recvNewInitialDatagram net with ⟨o, k1, n1⟩
  rw [g] at e p
  have one : ∃ used ls, net = used ++ n1 ∧ Prints k k1 ls
      ∧ (k.logTraffic = true → Lines (received used) ls) ∧ (k.logTraffic = false → ls = []) := ⟨used, ls, e, p, h1, h2⟩
  cases o with
  | ok d =>
    dsimp only
    split
    · rename_i c _
      have hr := register_prints rng k1 (.fromConnection c)
      rcases gr : k1.register (.fromConnection c) rng with ⟨o2, k2, r2⟩
      rw [gr] at hr
      have one' : ∃ used ls, net = used ++ n1 ∧ Prints k k2 ls
          ∧ (k.logTraffic = true → Lines (received used) ls) ∧ (k.logTraffic = false → ls = []) :=
        ⟨used, ls, e, by simpa using p.trans hr, h1, h2⟩
      cases o2 with
      | ok rv =>
        dsimp only
        split
        · exact one'
        · exact one'
      | ioErr => exact one'
      | panic w => exact one'
      | blocked => exact one'
    · exact one
    · exact one
  | ioErr => exact one
  | panic w => exact one
  | blocked => exact one

theorem packets_prints (k : Sock) (d : Datagram) :
    ∃ ls, Prints k (k.packetsFromDatagram bp d).2 ls ∧ (k.logTraffic = false → ls = [])
      ∧ (k.logTraffic = true → match (k.packetsFromDatagram bp d).1 with
          | .ok ps => ls = [.packets ps]
          | _ => ls = []) := by
  unfold packetsFromDatagram
  dsimp only
  split
  · split
    · exact ⟨[], .refl k, fun _ => rfl, fun _ => rfl⟩
    · split
      · rename_i rv _
        cases hl : k.logTraffic with
        | true => exact ⟨[.packets rv], ⟨hl.symm, rfl⟩, fun h => (by cases h), fun _ => rfl⟩
        | false => exact ⟨[], ⟨by simp, by simp⟩, fun _ => rfl, fun h => (by cases h)⟩
      · rename_i hno
        refine ⟨[], .refl k, fun _ => rfl, fun _ => ?_⟩
        dsimp only
        split
        · rename_i ps he; exact absurd he (hno ps)
        · rfl
  · exact ⟨[], .refl k, fun _ => rfl, fun _ => rfl⟩
  · exact ⟨[], .refl k, fun _ => rfl, fun _ => rfl⟩

/-- C92, the internal switch (src/routing.rs:189-192): in every history of internal calls, starting from any state, what is printed is the
log that these calls ought to give.
Missing for the full statement: the public switch, which does nothing (`C92_public_silent`). -/
theorem C92_internal_partial (ops : List SockOp) (k : Sock) :
    ∃ ls, (k.run P bp ops).2.printed = k.printed ++ ls ∧ LogOf k.logTraffic (ops.zip (k.run P bp ops).1) ls := by
  induction ops generalizing k with
  | nil => exact ⟨[], by simp [Sock.run], .nil⟩
  | cons op ops ih =>
    obtain ⟨ls, e, h⟩ := ih (k.step P bp op).2
    show ∃ ls, (((k.step P bp op).2).run P bp ops).2.printed = k.printed ++ ls
      ∧ LogOf k.logTraffic ((op, (k.step P bp op).1) :: ops.zip (((k.step P bp op).2).run P bp ops).1) ls
    cases op with
    | setLog f => exact ⟨ls, e, .switch h⟩
    | drop id =>
      refine ⟨ls, e, ?_⟩
      have h' : LogOf k.logTraffic _ ls := h
      revert h'
      cases k.logTraffic <;> intro h'
      · exact .off (fun f hf => by cases hf) h'
      · exact .drop h'
    | route d =>
      have hr := route_prints k d
      have e1 : (k.step P bp (.route d)).2.printed = k.printed := hr.2.trans (by simp)
      have e2 : (k.step P bp (.route d)).2.logTraffic = k.logTraffic := hr.1
      rw [e1] at e; rw [e2] at h
      refine ⟨ls, e, ?_⟩
      revert h
      cases k.logTraffic <;> intro h
      · exact .off (fun f hf => by cases hf) h
      · exact .route h
    | packets d =>
      obtain ⟨l1, hr, q1, q2⟩ := packets_prints (bp := bp) k d
      have e1 : (k.step P bp (.packets d)).2.printed = k.printed ++ l1 := hr.2
      have e2 : (k.step P bp (.packets d)).2.logTraffic = k.logTraffic := hr.1
      rw [e1, List.append_assoc] at e; rw [e2] at h
      refine ⟨l1 ++ ls, e, ?_⟩
      revert h q1 q2
      cases k.logTraffic <;> intro h q1 q2
      · rw [q1 rfl]
        exact .off (fun f hf => by cases hf) h
      · have q2 := q2 rfl
        show LogOf true ((.packets d, .decoded (k.packetsFromDatagram bp d).1) :: _) _
        revert q2
        cases (k.packetsFromDatagram bp d).1 with
        | ok ps => intro q2; subst q2; exact .decoded h
        | err x => intro q2; subst q2; exact .notDecoded (fun _ he => by cases he) h
        | panic x => intro q2; subst q2; exact .notDecoded (fun _ he => by cases he) h
    | accept net rng =>
      obtain ⟨used, l1, en, hr, q1, q2⟩ := accept_prints (P := P) k net rng
      have e1 : (k.step P bp (.accept net rng)).2.printed = k.printed ++ l1 := hr.2
      have e2 : (k.step P bp (.accept net rng)).2.logTraffic = k.logTraffic := hr.1
      rw [e1, List.append_assoc] at e; rw [e2] at h
      refine ⟨l1 ++ ls, e, ?_⟩
      revert h q1 q2
      cases k.logTraffic <;> intro h q1 q2
      · rw [q2 rfl]
        exact .off (fun f hf => by cases hf) h
      · show LogOf true ((.accept net rng, .accepted (k.accept P net rng).1 (k.accept P net rng).2.2.1 (k.accept P net rng).2.2.2) :: _) _
        have : ∀ n, n = used ++ (k.accept P net rng).2.2.1 →
            LogOf true ((.accept n rng, .accepted (k.accept P net rng).1 (k.accept P net rng).2.2.1 (k.accept P net rng).2.2.2) ::
              ops.zip (((k.step P bp (.accept net rng)).2).run P bp ops).1) (l1 ++ ls) := by
          intro n hn
          subst hn
          exact .accept (q1 rfl) h
        exact this net en

/-! ### The public switch -/

/-- The calls of the public interface (src/interface.rs). -/
inductive PubOp where
  | accept (net : List NetEvent) (rng : List U64)
  | connect
  | dropStream (s : QuicStream)
  | setLog (flag : Bool)

/-- The state after a public call. -/
def Sock.pub (P : Prims) (k : Sock) : PubOp → Sock
  | .accept net rng => (QuicSocket.accept P k net rng).2.1
  | .connect => k
  | .dropStream s => s.drop k
  | .setLog flag => QuicSocket.setLogTraffic k flag

/-- The state after a history of public calls. -/
def Sock.pubs (P : Prims) (k : Sock) : List PubOp → Sock
  | [] => k
  | op :: ops => Sock.pubs P (k.pub P op) ops

/-- C92 as one would have it: once a caller has switched logging on, a datagram received by `accept` is reported. -/
def C92For (P : Prims) : Prop :=
  ∀ (raw : Bytes) (addr : Nat) (rng : List U64),
    ∃ line, (Sock.bind.pubs P [.setLog true, .accept [.datagram raw addr] rng]).printed = [line] ∧ Reports (raw.take 4096) line
/-- The claim, for all algorithms that obey the laws. -/
def C92Statement : Prop := ∀ P, PrimLaws P → C92For P

/-- No history of public calls prints a line of the traffic log, whatever it switches on. (Other output: C99.) -/
theorem C92_public_silent (P : Prims) (ops : List PubOp) : (Sock.bind.pubs P ops).printed = [] := by
  suffices h : ∀ (ops : List PubOp) (k : Sock), k.logTraffic = false → (k.pubs P ops).printed = k.printed from h ops Sock.bind rfl
  intro ops
  induction ops with
  | nil => intro k _; rfl
  | cons op ops ih =>
    intro k hk
    suffices hs : (k.pub P op).logTraffic = false ∧ (k.pub P op).printed = k.printed by
      show ((k.pub P op).pubs P ops).printed = _
      rw [ih _ hs.1, hs.2]
    cases op with
    | accept net rng =>
      obtain ⟨used, ls, -, p, -, h⟩ := accept_prints (P := P) k net rng
      have hk' : (k.pub P (.accept net rng)) = (k.accept P net rng).2.1 := by
        show (QuicSocket.accept P k net rng).2.1 = _
        unfold QuicSocket.accept
        split <;> simp_all
      rw [hk']
      exact ⟨p.1.trans hk, by simpa [h hk] using p.2⟩
    | connect => exact ⟨hk, rfl⟩
    | dropStream s => exact ⟨hk, rfl⟩
    | setLog f => exact ⟨hk, rfl⟩

theorem C92_false : ¬ C92Statement := by
  intro h
  obtain ⟨line, e, -⟩ := h toy toy_laws [] 0 []
  rw [C92_public_silent] at e
  cases e

/-- A datagram accepted while the internal switch is on leaves one line, and a second one after it is off leaves none. -/
example : ∃ l, (Sock.run toy .debug Sock.bind [.setLog true, .accept [.datagram exInitial.data 1] [7], .setLog false,
      .accept [.datagram exInitial.data 1] [7]]).2.printed = [l] := by
  have hs : ∃ l, ((Sock.bind.setLogTraffic true).accept toy [.datagram exInitial.data 1] [7]).2.1.printed = [l] := by
    obtain ⟨used, ls, en, p, h, -⟩ := accept_prints (P := toy) (Sock.bind.setLogTraffic true) [.datagram exInitial.data 1] [7]
    have h := h rfl
    have hu : used = [.datagram exInitial.data 1] := by
      have h0 : ((Sock.bind.setLogTraffic true).accept toy [.datagram exInitial.data 1] [7]).2.2.1 = [] := by decide +kernel
      rw [h0, List.append_nil] at en
      exact en.symm
    subst hu
    cases h with
    | cons h1 h2 => cases h2; exact ⟨_, p.2⟩
  obtain ⟨l, hl⟩ := hs
  refine ⟨l, ?_⟩
  obtain ⟨used, ls, en, p, -, h⟩ := accept_prints (P := toy) (((Sock.bind.setLogTraffic true).accept toy [.datagram exInitial.data 1] [7]).2.1.setLogTraffic false) [.datagram exInitial.data 1] [7]
  have := p.2
  rw [h rfl] at this
  exact this.trans (by simpa [setLogTraffic] using hl)

end QuicSea
