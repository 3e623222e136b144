import Verif.Props.Serial
/-
C96: an application can release every connection of its socket.
-/
namespace QuicSea
open Spec Sock
variable {P : Prims}

/-- The streams a call returned. -/
def Io.streams : Io QuicStream → List QuicStream
  | .ok s => [s]
  | _ => []

/-- What an application can do with a socket (src/interface.rs), and the streams it then has. It cannot make a stream itself: the fields of
`QuicStream` are private, and it is not `Clone`. -/
inductive AppStep (P : Prims) : Sock × List QuicStream → Sock × List QuicStream → Prop where
  | accept (k ss) (net : List NetEvent) (rng : List U64) :
      AppStep P (k, ss) ((QuicSocket.accept P k net rng).2.1, (QuicSocket.accept P k net rng).1.streams ++ ss)
  | connect (k ss) : AppStep P (k, ss) (k, (QuicSocket.connect k).streams ++ ss)
  | setLog (k ss) (flag : Bool) : AppStep P (k, ss) (QuicSocket.setLogTraffic k flag, ss)
  | drop (k ss) (s : QuicStream) (h : s ∈ ss) : AppStep P (k, ss) (s.drop k, ss.erase s)

/-- Any number of calls. -/
inductive AppRun (P : Prims) (a : Sock × List QuicStream) : Sock × List QuicStream → Prop where
  | start : AppRun P a a
  | step {b c} : AppRun P a b → AppStep P b c → AppRun P a c

/-- A new socket, and no streams. -/
abbrev app0 : Sock × List QuicStream := (Sock.bind, [])

/-- C96, full statement: whatever was done, every connection of the socket can be released by calls of the application. -/
def C96For (P : Prims) : Prop := ∀ a, AppRun P app0 a → ∀ key, (a.1.streams key).isSome →
  ∃ b, AppRun P a b ∧ b.1.streams key = none
/-- The claim, for all algorithms that obey the laws. -/
def C96Statement : Prop := ∀ P, PrimLaws P → C96For P

/-- Connections stay, with at least the datagrams they had. -/
def Grows (k k' : Sock) : Prop := ∀ key x, k.streams key = some x → ∃ more, k'.streams key = some { x with queue := x.queue ++ more }

theorem Grows.refl (k : Sock) : Grows k k := fun _ x h => ⟨[], by simpa using h⟩
theorem Grows.trans {k k' k'' : Sock} (h : Grows k k') (h' : Grows k' k'') : Grows k k'' := by
  intro key x hx
  obtain ⟨m1, e1⟩ := h key x hx
  obtain ⟨m2, e2⟩ := h' key _ e1
  exact ⟨m1 ++ m2, by simpa using e2⟩
theorem Grows.of_eq {k k' : Sock} (h : k'.streams = k.streams) : Grows k k' := fun _ x hx => ⟨[], by rw [h]; simpa using hx⟩

theorem route_grows (k : Sock) (d : Datagram) : Grows k (k.routeDatagram d).2 := by
  unfold routeDatagram
  cases (nextHeaderFromStream (makeResultStream d.data)).1 with
  | ok h =>
    dsimp only
    cases hx : k.streams h.getDestinationId with
    | none => exact .refl k
    | some x =>
      intro key y hy
      dsimp only [tableInsert]
      split
      · rename_i e
        rw [e, hx] at hy
        cases hy
        exact ⟨[d], rfl⟩
      · exact ⟨[], by simpa using hy⟩
  | err e => exact .refl k
  | panic w => exact .refl k

theorem recvNew_grows (net : List NetEvent) (k : Sock) : Grows k (k.recvNewInitialDatagram net).2.1 := by
  induction net generalizing k with
  | nil => exact .refl k
  | cons e net ih =>
    have hr := recv_streams k e
    unfold recvNewInitialDatagram
    rcases hd : k.recvDatagram e with ⟨o, k1⟩
    rw [hd] at hr
    have h1 : Grows k k1 := .of_eq hr
    cases o with
    | ok d =>
      dsimp only
      cases k1.isNewInitial d with
      | ok b =>
        cases b with
        | true => exact h1
        | false =>
          dsimp only
          have h2 := route_grows k1 d
          rcases ho : k1.routeDatagram d with ⟨o, k2⟩
          rw [ho] at h2
          cases o with
          | ok u => exact h1.trans (h2.trans (ih k2))
          | err e => exact h1.trans h2
          | panic w => exact h1.trans h2
      | err e => exact h1
      | panic w => exact h1
    | ioErr => exact h1
    | panic w => exact h1
    | blocked => exact h1

theorem register_grows (k : Sock) (s : StreamState) (rng : List U64) : Grows k (k.register s rng).2.1 := by
  rcases register_table k s rng with h | ⟨key, hn, h⟩
  · rw [h]; exact .refl k
  · intro key' x hx
    refine ⟨[], ?_⟩
    rw [h]
    have : key' ≠ key := by rintro rfl; rw [hn] at hx; cases hx
    simpa [tableInsert, this] using hx

theorem accept_grows (k : Sock) (net : List NetEvent) (rng : List U64) : Grows k (k.accept P net rng).2.1 := by
  have h1 := recvNew_grows net k
  unfold accept
  rcases hr : k.recvNewInitialDatagram net with ⟨o, k1, net1⟩
  rw [hr] at h1
  cases o with
  | ok d =>
    dsimp only
    cases newConnectionFor P d with
    | ok c =>
      dsimp only
      have h2 := register_grows k1 (.fromConnection c) rng
      rcases hg : k1.register (.fromConnection c) rng with ⟨o, k2, rng2⟩
      rw [hg] at h2
      cases o with
      | ok rv => dsimp only; split <;> exact h1.trans h2
      | ioErr => exact h1.trans h2
      | panic w => exact h1.trans h2
      | blocked => exact h1.trans h2
    | err e => exact h1
    | panic w => exact h1
  | ioErr => exact h1
  | panic w => exact h1
  | blocked => exact h1

theorem public_accept_state (k : Sock) (net : List NetEvent) (rng : List U64) : (QuicSocket.accept P k net rng).2.1 = (k.accept P net rng).2.1 := by
  unfold QuicSocket.accept
  split <;> simp_all

theorem accept_no_stream (k : Sock) (net : List NetEvent) (rng : List U64) : (QuicSocket.accept P k net rng).1.streams = [] := by
  rcases h : QuicSocket.accept P k net rng with ⟨o, k', n', r'⟩
  cases o with
  | ok s => exact absurd h (C48_public_never P k k' net n' rng r' s)
  | ioErr => rfl
  | panic w => rfl
  | blocked => rfl

/-- One call of an application without streams. -/
theorem app_step {k : Sock} {b : Sock × List QuicStream} (h : AppStep P (k, []) b) : b.2 = [] ∧ Grows k b.1 := by
  cases h with
  | accept _ _ net rng => exact ⟨by simp [accept_no_stream], by rw [public_accept_state]; exact accept_grows k net rng⟩
  | connect => exact ⟨rfl, .refl k⟩
  | setLog _ _ flag => exact ⟨rfl, .refl k⟩
  | drop _ _ s h => cases h

/-- C96: no application ever gets a stream, whatever arrives from the network. -/
theorem C96_no_stream {a : Sock × List QuicStream} (h : AppRun P app0 a) : a.2 = [] := by
  induction h with
  | start => rfl
  | @step b c _ hs ih =>
    obtain ⟨k, ss⟩ := b
    cases ih
    exact (app_step hs).1

/-- C96: no connection of a socket is ever released: it stays until the process ends, and so do the datagrams queued for it. -/
theorem C96_never_released {a b : Sock × List QuicStream} (ha : AppRun P app0 a) (hb : AppRun P a b) (key : U160) (x : StreamState)
    (hx : a.1.streams key = some x) : ∃ more, b.1.streams key = some { x with queue := x.queue ++ more } := by
  have key : Grows a.1 b.1 ∧ AppRun P app0 b := by
    induction hb with
    | start => exact ⟨.refl _, ha⟩
    | @step b c _ hs ih =>
      obtain ⟨i1, i2⟩ := ih
      have hn := C96_no_stream i2
      obtain ⟨k, ss⟩ := b
      cases hn
      exact ⟨i1.trans (app_step hs).2, i2.step hs⟩
  exact key.1 _ x hx

/-- An application that accepted one client. -/
theorem exApp : ∃ a, AppRun toy app0 a ∧ (a.1.streams (.ofU64 7)).isSome := by
  refine ⟨_, .step .start (.accept _ _ [.datagram exInitial.data 1] [7]), ?_⟩
  rw [public_accept_state]
  have hreg := C48_registers_partial toy toy_laws Sock.bind [] exInitial.data 1 [] _ [] 7 []
    (by simp) exInitial_addressed (fun _ _ => rfl) (by simp) (.ofU64 7) (by decide +kernel) rfl
  obtain ⟨k1, c, dcid, e, -, -, h2, -⟩ := hreg
  simp only [List.map_nil, List.nil_append] at e
  rw [e]
  exact h2 ▸ rfl

theorem C96_false : ¬ C96Statement := by
  intro h
  obtain ⟨a, ha, hs⟩ := exApp
  obtain ⟨b, hb, hn⟩ := h toy toy_laws a ha _ hs
  cases hx : a.1.streams (.ofU64 7) with
  | none => rw [hx] at hs; cases hs
  | some x =>
    obtain ⟨more, e⟩ := C96_never_released ha hb _ x hx
    rw [hn] at e
    cases e

/-- C96, the part that holds: an application that has the stream of a connection releases it by one call, and no other connection.
Missing: it never has one (`C96_no_stream`). -/
theorem C96_release_partial (k : Sock) (ss : List QuicStream) (s : QuicStream) (hs : s ∈ ss) :
    ∃ b, AppRun P (k, ss) b ∧ b.1.streams s.connectionId = none ∧ SameBut k b.1 s.connectionId :=
  ⟨_, .step .start (.drop k ss s hs), (C47_removes_only k s).1, (C47_removes_only k s).2.1⟩
example : ∃ b, AppRun toy (exTable, [⟨.ofU64 5⟩]) b ∧ (exTable.streams (.ofU64 5)).isSome ∧ b.1.streams (.ofU64 5) = none := by
  obtain ⟨b, h1, h2, -⟩ := C96_release_partial (P := toy) exTable [⟨.ofU64 5⟩] ⟨.ofU64 5⟩ (by simp)
  exact ⟨b, h1, by decide +kernel, h2⟩

end QuicSea
