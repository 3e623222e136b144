import Verif.Proofs.Env
import Verif.Props.Logging
import Verif.Props.Identity
/-
C99: decoding is a function of the bytes and writes nothing. False: `var_bytes_from_stream` prints when it fails, and panics when it cannot print.
C100: what is decoded does not depend on the width of a pointer. False: lengths are truncated to it.
-/
namespace Spec
open QuicSea

/-- A long header with version 0 that ends within one of its two connection ids, `i` bytes after the length of that id. -/
inductive CutShort : Bytes → Nat → Prop where
  | dst {b len : U8} {id : Bytes} : 128 ≤ b.toNat → id.length < len.toNat → CutShort ([b, 0, 0, 0, 0, len] ++ id) id.length
  | src {b len len' : U8} {id id' : Bytes} : 128 ≤ b.toNat → id.length = len.toNat → id'.length < len'.toNat →
      CutShort ([b, 0, 0, 0, 0, len] ++ id ++ [len'] ++ id') id'.length
example : CutShort [0x80, 0, 0, 0, 0, 2, 9, 9, 5, 1, 2, 3] 3 := .src (b := 0x80) (len := 2) (len' := 5) (id := [9, 9]) (id' := [1, 2, 3]) (by decide) rfl (by decide)

/-- The lines of the traffic log among the lines printed. -/
def logged : List Line → List LogLine
  | [] => []
  | .log l :: ls => l :: logged ls
  | _ :: ls => logged ls

end Spec

namespace QuicSea
open Spec Sock

theorem logged_append (a b : List Line) : logged (a ++ b) = logged a ++ logged b := by
  induction a with
  | nil => rfl
  | cons l a ih => cases l <;> simp [logged, ih]
theorem logged_failed (l : List Nat) : logged (l.map Line.failedAt) = [] := by
  induction l with
  | nil => rfl
  | cons l a ih => exact ih

/-! ### C99, decoding -/

/-- C99 as one would have it: on a 64-bit machine, whatever its outputs, decoding writes nothing, and gives what the bytes determine. -/
def C99For (P : Prims) : Prop :=
  ∀ (bp : Profile) (c : Connection), Connection.Reachable P bp c → ∀ (stdout stderr : Bool) (d : Bytes),
    decodePacketsP ⟨64, stdout, stderr⟩ bp c (makeResultStream d) = ((decodePackets bp c (makeResultStream d)).1, (decodePackets bp c (makeResultStream d)).2, [])
/-- The claim, for all algorithms that obey the laws. -/
def C99Statement : Prop := ∀ P, PrimLaws P → C99For P

/-- What is decoded successfully is decoded without output, on every machine.
Missing for the full statement: failures, for which it is false (`C99_token_printed`). -/
theorem C99_success_silent_partial (P : Prims) (hP : PrimLaws P) (bp : Profile) (c : Connection) (hr : Connection.Reachable P bp c) (stdout stderr : Bool)
    (s s' : Stream) (hs : s.length + 4 < 2 ^ 64) (ps : List Packet) (h : decodePackets bp c s = (.ok ps, s')) :
    decodePacketsP ⟨64, stdout, stderr⟩ bp c s = (.ok ps, s', []) :=
  (packets_grow hP (w := ⟨64, stdout, stderr⟩) (Nat.le_refl _) bp (reachable_keysOrNone hP hr) s ps s' hs h).1

/-- Any decoding, of packets or of frames: either the outputs do not matter and nothing is printed; or it fails, after printing one line, and panics instead
where that is not possible.
Missing for the full statement: that nothing is printed in the second case, which is false (`C99_token_printed`). -/
theorem C99_outputs_partial (bp : Profile) (c : Connection) (stderr : Bool) (s : Stream) :
    ((∀ b, decodePacketsP ⟨64, b, stderr⟩ bp c s = ((decodePackets bp c s).1, (decodePackets bp c s).2, []))
      ∨ (∀ ps, (decodePackets bp c s).1 ≠ .ok ps) ∧ ∃ i s', decodePacketsP ⟨64, true, stderr⟩ bp c s = ((decodePackets bp c s).1, (decodePackets bp c s).2, [i])
          ∧ decodePacketsP ⟨64, false, stderr⟩ bp c s = (.panic "failed printing to stdout", s', []))
    ∧ ((∀ b, deserializeFramesP ⟨64, b, stderr⟩ s = ((deserializeFrames s).1, (deserializeFrames s).2, []))
      ∨ (∀ fs, (deserializeFrames s).1 ≠ .ok fs) ∧ ∃ i s', deserializeFramesP ⟨64, true, stderr⟩ s = ((deserializeFrames s).1, (deserializeFrames s).2, [i])
          ∧ deserializeFramesP ⟨64, false, stderr⟩ s = (.panic "failed printing to stdout", s', [])) :=
  ⟨packets_same stderr bp c s, frames_same stderr s⟩

/-- The same for writing packets.
Missing for the full statement: readers that fail, for which it is false (`C99_token_printed`). -/
theorem C99_writers_partial (p : PacketInitial) (q : PacketHandshake) (c : Connection) (stderr : Bool) (s : Stream) :
    ((∀ b, p.serializeP ⟨64, b, stderr⟩ c s = (p.serialize c, s, []))
      ∨ (∀ o, p.serialize c ≠ .ok o) ∧ ∃ i s', p.serializeP ⟨64, true, stderr⟩ c s = (p.serialize c, s, [i])
          ∧ p.serializeP ⟨64, false, stderr⟩ c s = (.panic "failed printing to stdout", s', []))
    ∧ ((∀ b, q.serializeP ⟨64, b, stderr⟩ c s = (q.serialize c, s, []))
      ∨ (∀ o, q.serialize c ≠ .ok o) ∧ ∃ i s', q.serializeP ⟨64, true, stderr⟩ c s = (q.serialize c, s, [i])
          ∧ q.serializeP ⟨64, false, stderr⟩ c s = (.panic "failed printing to stdout", s', [])) :=
  ⟨initialBytes_same stderr p c s, handshakeBytes_same stderr q c s⟩

theorem varBytesLoop_short (w : Env) (d : Bytes) : ∀ (n i : Nat), d.length < n → varBytesLoopP w i n (makeResultStream d) =
    if w.stdout then (.err (.internalError "not enough bytes for var_bytes"), [], [i + d.length]) else (.panic "failed printing to stdout", [], []) := by
  induction d with
  | nil =>
    intro n i h
    obtain ⟨n, rfl⟩ : ∃ m, n = m + 1 := ⟨n - 1, by simp at h; omega⟩
    rw [varBytesLoopP]
    cases e : w.stdout
    · rw [Pr.bind_panic (e := "failed printing to stdout") (s' := []) (l := []) (by show nextOrPrint w i [] = _; simp [nextOrPrint, nextOr, e])]; rfl
    · rw [Pr.bind_err (e := .internalError "not enough bytes for var_bytes") (s' := []) (l := [i]) (by show nextOrPrint w i [] = _; simp [nextOrPrint, nextOr, e])]; rfl
  | cons b d ih =>
    intro n i h
    obtain ⟨n, rfl⟩ : ∃ m, n = m + 1 := ⟨n - 1, by simp at h; omega⟩
    rw [varBytesLoopP, Pr.bind_silent (show nextOrPrint w i (makeResultStream (b :: d)) = (.ok b, makeResultStream d, []) from rfl)]
    have := ih n (i + 1) (by simp at h; omega)
    cases e : w.stdout
    · rw [e] at this; rw [Pr.bind_panic this]; rfl
    · rw [e] at this
      rw [Pr.bind_err this, if_pos rfl, List.length_cons]
      simp; omega
theorem varBytes_short (w : Env) {d : Bytes} {n : Nat} (h : d.length < n) : varBytesP w n (makeResultStream d) =
    if w.stdout then (.err (.internalError "not enough bytes for var_bytes"), [], [d.length]) else (.panic "failed printing to stdout", [], []) := by
  have := varBytesLoop_short w d n 0 h
  rw [Nat.zero_add] at this
  exact this
theorem of_ok {m : Rd α} {s s' : Stream} {a : α} (h : m s = (.ok a, s')) : Pr.of m s = (.ok a, s', []) := by unfold Pr.of; rw [h]
theorem Reads.of {m : Rd α} {bs : Bytes} {a : α} (h : Reads m bs a) (rest : Stream) : Pr.of m (makeResultStream bs ++ rest) = (.ok a, rest, []) := of_ok (h rest)

/-- Every payload that is a NEW_TOKEN frame with fewer bytes than it announces prints the number of those bytes; without a standard output it panics. -/
theorem C99_token_printed (L : U64) (lb d : Bytes) (hl : IsVarInt lb L.toNat) (hd : d.length < L.toNat) (stdout stderr : Bool) :
    deserializeFramesP ⟨64, stdout, stderr⟩ (makeResultStream ([0x07] ++ lb ++ d)) =
      if stdout then (.err (.internalError "not enough bytes for var_bytes"), [], [d.length]) else (.panic "failed printing to stdout", [], []) := by
  have h1 : FrameNewToken.fromDatagramP ⟨64, stdout, stderr⟩ (makeResultStream (lb ++ d)) =
      if stdout then (.err (.internalError "not enough bytes for var_bytes"), [], [d.length]) else (.panic "failed printing to stdout", [], []) := by
    unfold FrameNewToken.fromDatagramP
    rw [makeResultStream_append, Pr.bind_silent ((varInt_reads hl).of _), show (⟨64, stdout, stderr⟩ : Env).usize L = L.toNat from usize64 _ _ L]
    have := varBytes_short ⟨64, stdout, stderr⟩ hd
    cases stdout
    · rw [Pr.bind_panic this]; rfl
    · rw [Pr.bind_err this]; rfl
  have ht : Pr.of varIntFromStream (makeResultStream ([0x07] ++ lb ++ d)) = (.ok 0x07, makeResultStream (lb ++ d), []) := by
    have := (varInt_reads (v := 0x07) (bs := [0x07]) ⟨0, by decide⟩).of (makeResultStream (lb ++ d))
    rw [← makeResultStream_append, ← List.append_assoc] at this
    exact this
  have h2 : deserializeFrameP ⟨64, stdout, stderr⟩ (makeResultStream ([0x07] ++ lb ++ d)) =
      if stdout then (.err (.internalError "not enough bytes for var_bytes"), [], [d.length]) else (.panic "failed printing to stdout", [], []) := by
    unfold deserializeFrameP
    rw [Pr.bind_silent ht]
    show (do let x ← FrameNewToken.fromDatagramP _; pure (Frame.newToken x) : Pr Frame) _ = _
    cases stdout
    · rw [Pr.bind_panic h1]; rfl
    · rw [Pr.bind_err h1]; rfl
  unfold deserializeFramesP
  rw [show makeResultStream ([0x07] ++ lb ++ d) = .ok 0x07 :: makeResultStream (lb ++ d) from rfl] at h2 ⊢
  rw [List.length_cons, deserializeFramesLoopP]
  cases stdout
  · rw [Pr.bind_panic h2]; rfl
  · rw [Pr.bind_err h2]; rfl
  · simp

/-! ### C99, the socket -/

/-- What reading a header does on the machine `w`. -/
theorem header_env (w : Env) (data : Bytes) :
    (nextHeaderFromStreamP w (makeResultStream data) = ((nextHeaderFromStream (makeResultStream data)).1, (nextHeaderFromStream (makeResultStream data)).2, []))
    ∨ ∃ e i, (nextHeaderFromStream (makeResultStream data)).1 = .err e ∧ ∃ s s',
      nextHeaderFromStreamP w (makeResultStream data) = if w.stdout then (.err e, s, [i]) else (.panic "failed printing to stdout", s', []) := by
  have hv : ∀ n i, varBytesLoopP w i n = varBytesLoopP (m64 w.stderr w.stdout) i n := by
    intro n
    induction n with
    | zero => intro i; rfl
    | succ n ih => intro i; rw [varBytesLoopP, varBytesLoopP, ih]; rfl
  have hv : ∀ n, varBytesP w n = varBytesP (m64 w.stderr w.stdout) n := fun n => hv n 0
  have hw : nextHeaderFromStreamP w = nextHeaderFromStreamP (m64 w.stderr w.stdout) := by
    unfold nextHeaderFromStreamP LongPacketHeader.fromStreamP
    simp only [hv]
  rw [hw]
  rcases header_same w.stderr (makeResultStream data) with h | ⟨h, i, s', h3, h4⟩
  · exact .inl (h w.stdout)
  · have hp := nextHeader_noPanic (makeResultStream data)
    cases e : (nextHeaderFromStream (makeResultStream data)).1 with
    | ok x => exact absurd e (h x)
    | panic p => rw [e] at hp; cases hp
    | err x =>
      refine .inr ⟨x, i, rfl, (nextHeaderFromStream (makeResultStream data)).2, s', ?_⟩
      cases w.stdout
      · exact h4
      · exact h3.trans (by rw [e]; rfl)

theorem recv_env {w : Env} (ho : w.stdout = true) (k : Sock) (e : NetEvent) :
    ∃ ls, k.recvDatagramP w e = ((k.recvDatagram e).1, (k.recvDatagram e).2, ls) ∧ (k.recvDatagram e).2.printed = k.printed ++ logged ls
      ∧ (k.logTraffic = false → ls = []) := by
  cases e with
  | ioError => exact ⟨[], rfl, by simp [recvDatagram, logged], fun _ => rfl⟩
  | datagram raw addr =>
    unfold recvDatagramP recvDatagram
    cases hl : k.logTraffic with
    | false => exact ⟨[], by simp, by simp [logged], fun _ => rfl⟩
    | true =>
      have hp := nextHeader_noPanic (makeResultStream (raw.take RECV_BUFFER_LEN))
      rcases header_env w (raw.take RECV_BUFFER_LEN) with h | ⟨x, i, h1, s, s', h2⟩
      · cases e : (nextHeaderFromStream (makeResultStream (raw.take RECV_BUFFER_LEN))).1 with
        | panic p => rw [e] at hp; cases hp
        | ok x => exact ⟨[.log (.header (.ok x))], by simp [h, e, ho], by simp [e, logged], nofun⟩
        | err x => exact ⟨[.log (.header (.err x))], by simp [h, e, ho], by simp [e, logged], nofun⟩
      · exact ⟨[.failedAt i, .log (.header (.err x))], by simp [h1, h2, ho], by simp [h1, logged], nofun⟩
theorem isNew_env {w : Env} (ho : w.stdout = true) (he : w.stderr = true) (k : Sock) (d : Datagram) :
    ∃ ls, k.isNewInitialP w d = (k.isNewInitial d, ls) ∧ logged ls = [] ∧ (ls = [] ∨ k.isNewInitial d = .ok false ∧ ∃ e, (k.routeDatagram d).1 = .err e) := by
  unfold isNewInitialP isNewInitial routeDatagram
  rcases header_env w d.data with h | ⟨x, i, h1, s, s', h2⟩
  · cases e : (nextHeaderFromStream (makeResultStream d.data)).1 with
    | ok x =>
      refine ⟨[], ?_, rfl, .inl rfl⟩
      rw [h, e]
      dsimp only
      rcases x.getPacketType with t | _ | _
      · cases t <;> rfl
      · rfl
      · rfl
    | panic p => exact ⟨[], by simp [h, e], rfl, .inl rfl⟩
    | err x => exact ⟨[.refused x], by simp [h, e, he], rfl, .inr ⟨rfl, x, rfl⟩⟩
  · exact ⟨[.failedAt i, .refused x], by simp [h1, h2, ho, he], rfl, .inr ⟨by rw [h1]; rfl, x, by rw [h1]⟩⟩
theorem route_env {w : Env} (ho : w.stdout = true) (k : Sock) (d : Datagram) :
    ∃ ls, k.routeDatagramP w d = ((k.routeDatagram d).1, (k.routeDatagram d).2, ls) ∧ logged ls = [] ∧ (ls = [] ∨ ∃ e, (k.routeDatagram d).1 = .err e) := by
  unfold routeDatagramP routeDatagram
  rcases header_env w d.data with h | ⟨x, i, h1, s, s', h2⟩
  · refine ⟨[], ?_, rfl, .inl rfl⟩
    rw [h]
    cases e : (nextHeaderFromStream (makeResultStream d.data)).1 with
    | ok x =>
      dsimp only
      cases k.streams x.getDestinationId <;> rfl
    | err x => rfl
    | panic p => rfl
  · exact ⟨[.failedAt i], by simp [h1, h2, ho], rfl, .inr ⟨x, by rw [h1]⟩⟩

/-- The panic of src/routing.rs:107. -/
def refusedPanic : String := "called `Result::unwrap()` on an `Err` value"

theorem loop_env {w : Env} (ho : w.stdout = true) (he : w.stderr = true) (net : List NetEvent) (k : Sock) :
    ∃ ls, k.recvNewInitialDatagramP w net = ((k.recvNewInitialDatagram net).1, (k.recvNewInitialDatagram net).2.1, (k.recvNewInitialDatagram net).2.2, ls)
      ∧ (k.recvNewInitialDatagram net).2.1.printed = k.printed ++ logged ls
      ∧ (k.logTraffic = false → ls = [] ∨ (k.recvNewInitialDatagram net).1 = .panic refusedPanic) := by
  induction net generalizing k with
  | nil => exact ⟨[], rfl, by simp [recvNewInitialDatagram, logged], fun _ => .inl rfl⟩
  | cons e net ih =>
    obtain ⟨l1, h1, p1, q1⟩ := recv_env ho k e
    have ht := (recv_prints k e).choose_spec.1.1
    unfold recvNewInitialDatagramP recvNewInitialDatagram
    rw [h1]
    rcases g : k.recvDatagram e with ⟨o, k1⟩
    rw [g] at p1 ht
    have pre : k1.logTraffic = k.logTraffic := ht
    cases o with
    | ok d =>
      dsimp only
      obtain ⟨l2, h2, p2, q2⟩ := isNew_env ho he k1 d
      rw [h2]
      rcases gi : k1.isNewInitial d with b | x | p
      · cases b with
        | true =>
          refine ⟨l1 ++ l2, rfl, by rw [logged_append, p2, List.append_nil]; exact p1, fun hl => .inl ?_⟩
          rw [q1 hl]
          rcases q2 with rfl | ⟨q2, _⟩
          · rfl
          · rw [gi] at q2; cases q2
        | false =>
          dsimp only
          obtain ⟨l3, h3, p3, q3⟩ := route_env ho k1 d
          have hr := route_prints k1 d
          rw [h3]
          rcases gr : k1.routeDatagram d with ⟨o2, k2⟩
          rw [gr] at hr q2 q3
          have hpr : k2.printed = k.printed ++ logged (l1 ++ l2 ++ l3) := by
            rw [logged_append, logged_append, p2, p3, List.append_nil, List.append_nil, ← p1, hr.2, List.append_nil]
          cases o2 with
          | ok u =>
            obtain ⟨l4, h4, p4, q4⟩ := ih k2
            refine ⟨l1 ++ l2 ++ l3 ++ l4, by dsimp only; rw [h4], by rw [logged_append, ← List.append_assoc, ← hpr]; exact p4, fun hl => ?_⟩
            have e2 : l2 = [] := by
              rcases q2 with e | ⟨_, x, q2⟩
              · exact e
              · cases q2
            have e3 : l3 = [] := by
              rcases q3 with e | ⟨x, q3⟩
              · exact e
              · cases q3
            rw [q1 hl, e2, e3]
            exact q4 (hr.1.trans (pre.trans hl))
          | err x => exact ⟨l1 ++ l2 ++ l3, rfl, hpr, fun _ => .inr rfl⟩
          | panic p =>
            refine ⟨l1 ++ l2 ++ l3, rfl, hpr, fun hl => .inl ?_⟩
            have e2 : l2 = [] := by
              rcases q2 with e | ⟨_, x, q2⟩
              · exact e
              · cases q2
            have e3 : l3 = [] := by
              rcases q3 with e | ⟨x, q3⟩
              · exact e
              · cases q3
            rw [q1 hl, e2, e3]; rfl
      · refine ⟨l1 ++ l2, rfl, by rw [logged_append, p2, List.append_nil]; exact p1, fun hl => .inl ?_⟩
        rw [q1 hl]
        rcases q2 with rfl | ⟨q2, _⟩
        · rfl
        · rw [gi] at q2; cases q2
      · refine ⟨l1 ++ l2, rfl, by rw [logged_append, p2, List.append_nil]; exact p1, fun hl => .inl ?_⟩
        rw [q1 hl]
        rcases q2 with rfl | ⟨q2, _⟩
        · rfl
        · rw [gi] at q2; cases q2
    | ioErr => exact ⟨l1, rfl, p1, fun hl => .inl (q1 hl)⟩
    | panic p => exact ⟨l1, rfl, p1, fun hl => .inl (q1 hl)⟩
    | blocked => exact ⟨l1, rfl, p1, fun hl => .inl (q1 hl)⟩

/-- `accept` while both outputs can be written, on a machine of any width: it does what `Sock.accept` says, its log is the log of that, and with logging off it
prints nothing unless it panics over a datagram it can neither read nor route.
Missing for the full statement: the line printed before a panic (`C99_accept_prints`). -/
theorem C99_accept_partial (P : Prims) (w : Env) (ho : w.stdout = true) (he : w.stderr = true) (k : Sock) (net : List NetEvent) (rng : List U64) :
    ∃ ls, k.acceptP w P net rng = ((k.accept P net rng).1, (k.accept P net rng).2.1, (k.accept P net rng).2.2.1, (k.accept P net rng).2.2.2, ls)
      ∧ (k.accept P net rng).2.1.printed = k.printed ++ logged ls
      ∧ (k.logTraffic = false → ls = [] ∨ (k.accept P net rng).1 = .panic "called `Result::unwrap()` on an `Err` value") := by
  obtain ⟨ls, h, p, q⟩ := loop_env ho he net k
  unfold acceptP accept
  rw [h]
  rcases g : k.recvNewInitialDatagram net with ⟨o, k1, n1⟩
  rw [g] at p q
  cases o with
  | ok d =>
    have q' : k.logTraffic = false → ls = [] := fun hl => (q hl).resolve_right (by simp)
    dsimp only
    cases newConnectionFor P d with
    | ok c =>
      dsimp only
      have hr := register_prints rng k1 (.fromConnection c)
      rcases gr : k1.register (.fromConnection c) rng with ⟨o2, k2, r2⟩
      rw [gr] at hr
      have p' : k2.printed = k.printed ++ logged ls := by rw [← p, hr.2, List.append_nil]
      cases o2 with
      | ok rv =>
        dsimp only
        cases k2.streams rv <;> exact ⟨ls, rfl, p', fun hl => .inl (q' hl)⟩
      | ioErr => exact ⟨ls, rfl, p', fun hl => .inl (q' hl)⟩
      | panic w => exact ⟨ls, rfl, p', fun hl => .inl (q' hl)⟩
      | blocked => exact ⟨ls, rfl, p', fun hl => .inl (q' hl)⟩
    | err x => exact ⟨ls, rfl, p, fun hl => .inl (q' hl)⟩
    | panic x => exact ⟨ls, rfl, p, fun hl => .inl (q' hl)⟩
  | ioErr => exact ⟨ls, rfl, p, fun hl => .inl ((q hl).resolve_right (by simp))⟩
  | panic x => exact ⟨ls, rfl, p, fun hl => (q hl).imp_right fun e => by injection e with e; rw [e]; rfl⟩
  | blocked => exact ⟨ls, rfl, p, fun hl => .inl ((q hl).resolve_right (by simp))⟩

/-- Decoding a routed datagram on a 64-bit machine whose standard output can be written: it does what `Sock.packetsFromDatagram` says, its log is the log of that,
and besides the log it prints at most one line, when it fails.
Missing for the full statement: that nothing is printed on failure, which is false (`C99_token_printed`). -/
theorem C99_datagram_partial (bp : Profile) (stderr : Bool) (k : Sock) (d : Datagram) :
    ∃ ls, k.packetsFromDatagramP ⟨64, true, stderr⟩ bp d = ((k.packetsFromDatagram bp d).1, (k.packetsFromDatagram bp d).2, ls)
      ∧ (k.packetsFromDatagram bp d).2.printed = k.printed ++ logged ls
      ∧ ((∃ i, ls = [.failedAt i]) → ∀ ps, (k.packetsFromDatagram bp d).1 ≠ .ok ps)
      ∧ ((∃ i, ls = [.failedAt i]) ∨ ls = (logged ls).map .log) := by
  unfold packetsFromDatagramP packetsFromDatagram
  dsimp only
  rcases header_env ⟨64, true, stderr⟩ d.data with h | ⟨x, i, h1, s, s', h2⟩
  · rw [h]
    cases (nextHeaderFromStream (makeResultStream d.data)).1 with
    | ok x =>
      dsimp only
      cases k.streams x.getDestinationId with
      | none => exact ⟨[], rfl, by simp [logged], nofun, .inr rfl⟩
      | some st =>
        dsimp only
        rcases packets_same stderr bp st.connection (makeResultStream d.data) with g | ⟨g0, i, s', g, _⟩
        · have g : decodePacketsP ⟨64, true, stderr⟩ bp st.connection (makeResultStream d.data) = _ := g true
          rw [g]
          cases (decodePackets bp st.connection (makeResultStream d.data)).1 with
          | ok ps =>
            dsimp only
            cases k.logTraffic with
            | true => exact ⟨[.log (.packets ps)], rfl, rfl, fun ⟨i, h⟩ => (by cases h), .inr rfl⟩
            | false => exact ⟨[], rfl, by simp [logged], fun ⟨i, h⟩ => (by cases h), .inr rfl⟩
          | err e => exact ⟨[], rfl, by simp [logged], nofun, .inr rfl⟩
          | panic e => exact ⟨[], rfl, by simp [logged], nofun, .inr rfl⟩
        · have g : decodePacketsP ⟨64, true, stderr⟩ bp st.connection (makeResultStream d.data) = _ := g
          rw [g]
          cases e : (decodePackets bp st.connection (makeResultStream d.data)).1 with
          | ok ps => exact absurd e (g0 ps)
          | err e => exact ⟨[.failedAt i], rfl, by simp [logged], fun _ _ => nofun, .inl ⟨i, rfl⟩⟩
          | panic e => exact ⟨[.failedAt i], rfl, by simp [logged], fun _ _ => nofun, .inl ⟨i, rfl⟩⟩
    | err e => exact ⟨[], rfl, by simp [logged], nofun, .inr rfl⟩
    | panic e => exact ⟨[], rfl, by simp [logged], nofun, .inr rfl⟩
  · rw [h1, h2]
    exact ⟨[.failedAt i], rfl, by simp [logged], fun _ _ => nofun, .inl ⟨i, rfl⟩⟩

/-- Reading `s` stops at a missing byte: the number `i` is printed and an error returned, or the printing fails. -/
def Cut (w : Env) (i : Nat) (m : Pr α) (s : Stream) : Prop := m s =
  if w.stdout then (.err (.internalError "not enough bytes for var_bytes"), [], [i]) else (.panic "failed printing to stdout", [], [])
theorem Cut.bind {w : Env} {i : Nat} {m : Pr α} {f : α → Pr β} {s : Stream} (h : Cut w i m s) : Cut w i (m >>= f) s := by
  unfold Cut at *
  cases e : w.stdout
  · rw [e] at h; exact Pr.bind_panic h
  · rw [e] at h; exact Pr.bind_err h
theorem Cut.after {w : Env} {i : Nat} {m : Pr α} {f : α → Pr β} {s s' : Stream} {a : α} (h : m s = (.ok a, s', [])) (h2 : Cut w i (f a) s') :
    Cut w i (m >>= f) s := (Pr.bind_silent h).trans h2
theorem varBytesP_ok (w : Env) (id r : Bytes) : varBytesP w id.length (makeResultStream (id ++ r)) = (.ok id, makeResultStream r, []) := by
  have : ∀ (id : Bytes) (i : Nat), varBytesLoopP w i id.length (makeResultStream (id ++ r)) = (.ok id, makeResultStream r, []) := by
    intro id
    induction id with
    | nil => intro i; rfl
    | cons b id ih =>
      intro i
      rw [List.length_cons, varBytesLoopP, Pr.bind_silent (show nextOrPrint w i (makeResultStream (b :: id ++ r)) = (.ok b, makeResultStream (id ++ r), []) from rfl),
        Pr.bind_silent (ih (i + 1))]
      rfl
  exact this id 0
theorem header_cut (w : Env) {data : Bytes} {i : Nat} (hc : CutShort data i) : Cut w i (nextHeaderFromStreamP w) (makeResultStream data) := by
  have hv : ∀ r : Bytes, Pr.of u32FromDatagram (makeResultStream ([0, 0, 0, 0] ++ r)) = (.ok 0, makeResultStream r, []) := fun r => rfl
  have h8 : ∀ (x : U8) (r : Bytes), Pr.of u8FromDatagram (makeResultStream (x :: r)) = (.ok x, makeResultStream r, []) := fun x r => rfl
  have hb : ∀ b : U8, 128 ≤ b.toNat → b &&& 0x80 = 0x80 := by decide +kernel
  unfold nextHeaderFromStreamP
  cases hc with
  | @dst b len id h1 h2 =>
    refine Cut.after (show Pr.of (nextOr "no header byte found") _ = (.ok b, makeResultStream ([0, 0, 0, 0, len] ++ id), []) from rfl) ?_
    rw [if_pos (hb b h1)]
    refine Cut.bind ?_
    unfold LongPacketHeader.fromStreamP
    refine Cut.after (hv (len :: id)) (Cut.bind ?_)
    rw [if_neg (by decide)]
    exact Cut.after (h8 len id) (Cut.bind (varBytes_short w h2))
  | @src b len len' id id' h1 h2 h3 =>
    refine Cut.after (show Pr.of (nextOr "no header byte found") _ = (.ok b, makeResultStream ([0, 0, 0, 0, len] ++ id ++ [len'] ++ id'), []) from rfl) ?_
    rw [if_pos (hb b h1)]
    refine Cut.bind ?_
    unfold LongPacketHeader.fromStreamP
    rw [show [0, 0, 0, 0, len] ++ id ++ [len'] ++ id' = [0, 0, 0, 0] ++ (len :: (id ++ (len' :: id'))) by simp]
    refine Cut.after (hv (len :: (id ++ (len' :: id')))) (Cut.bind ?_)
    rw [if_neg (by decide)]
    refine Cut.after (h8 len _) (Cut.after (a := id) (s' := makeResultStream (len' :: id')) ?_ (Cut.after (h8 len' id') (Cut.bind (varBytes_short w h3))))
    rw [← h2]
    exact varBytesP_ok w id _

/-- Every datagram of version 0 that ends within a connection id makes `accept`, with logging off, print three lines before it panics; if standard output or
standard error cannot be written, it panics at the first line it cannot write. -/
theorem C99_accept_prints (P : Prims) (w : Env) (k : Sock) (hl : k.logTraffic = false) (data : Bytes) (hd : data.length ≤ 4096) (i : Nat) (hc : CutShort data i)
    (addr : Nat) (net : List NetEvent) (rng : List U64) :
    k.acceptP w P (.datagram data addr :: net) rng =
      if w.stdout then
        if w.stderr then (.panic "called `Result::unwrap()` on an `Err` value", k, net, rng,
          [.failedAt i, .refused (.internalError "not enough bytes for var_bytes"), .failedAt i])
        else (.panic "failed printing to stderr", k, net, rng, [.failedAt i])
      else (.panic "failed printing to stdout", k, net, rng, []) := by
  have h := header_cut w hc
  unfold Cut at h
  have ht : data.take 4096 = data := List.take_of_length_le hd
  unfold acceptP recvNewInitialDatagramP recvDatagramP
  rw [hl]
  cases eo : w.stdout
  · simp [isNewInitialP, RECV_BUFFER_LEN, ht, h, eo]
  · cases ee : w.stderr <;> simp [isNewInitialP, routeDatagramP, RECV_BUFFER_LEN, ht, h, eo, ee]

/-- With logging on and a standard output that cannot be written, `accept` panics at every datagram, and `packets_from_datagram` never yields packets. -/
theorem C99_logging_needs_stdout (P : Prims) (bp : Profile) (w : Env) (ho : w.stdout = false) (k : Sock) (hl : k.logTraffic = true) (data : Bytes) (addr : Nat)
    (net : List NetEvent) (rng : List U64) :
    k.acceptP w P (.datagram data addr :: net) rng = (.panic "failed printing to stdout", k, net, rng, [])
    ∧ ∀ d ps, (k.packetsFromDatagramP w bp d).1 ≠ .ok ps := by
  constructor
  · have hr : k.recvDatagramP w (.datagram data addr) = (.panic "failed printing to stdout", k, []) := by
      unfold recvDatagramP
      have hn := nextHeader_noPanic (makeResultStream (data.take RECV_BUFFER_LEN))
      rcases header_env w (data.take RECV_BUFFER_LEN) with h | ⟨e, i, h1, s, s', h2⟩
      · cases e : (nextHeaderFromStream (makeResultStream (data.take RECV_BUFFER_LEN))).1 with
        | panic p => rw [e] at hn; cases hn
        | ok a => simp [hl, ho, h, e]
        | err a => simp [hl, ho, h, e]
      · simp [hl, h2, ho]
    unfold acceptP recvNewInitialDatagramP
    rw [hr]
  · intro d ps h
    unfold packetsFromDatagramP at h
    simp only [hl, ho, if_true] at h
    split at h
    · split at h
      · cases h
      · split at h
        · cases h
        · rename_i hne
          exact hne _ h
    · cases h
    · cases h
example : (Sock.setLogTraffic Sock.bind true).logTraffic = true := rfl

/-- The public `accept` on a fresh socket, whose logging cannot be switched on: 12 bytes from anyone print three lines. -/
example : Sock.bind.logTraffic = false ∧ CutShort [0x80, 0, 0, 0, 0, 2, 9, 9, 5, 1, 2, 3] 3 ∧
    (Sock.bind.acceptP ⟨64, true, true⟩ toy [.datagram [0x80, 0, 0, 0, 0, 2, 9, 9, 5, 1, 2, 3] 1] [7]).2.2.2.2.length = 3 :=
  ⟨rfl, .src (b := 0x80) (len := 2) (len' := 5) (id := [9, 9]) (id' := [1, 2, 3]) (by decide) rfl (by decide), by decide +kernel⟩

/-- The packet of a peer that announces a token of 2^32 bytes and sends none. -/
def exWide : PacketInitial := ⟨exHeader 4, [], 1, [0, 0, 0, 1], .newToken ⟨0x100000000, []⟩ :: List.replicate 20 .padding⟩
def exWideOut : Bytes := match exWide.serialize exClient with
  | .ok b => b
  | _ => []

theorem C99_false : ¬ C99Statement := by
  intro h
  have := h toy toy_laws .debug exConn exConn_reachable true true exWideOut
  have e : (decodePacketsP ⟨64, true, true⟩ .debug exConn (makeResultStream exWideOut)).2.2 = [20] := by decide +kernel
  rw [this] at e
  cases e

/-- Both cases of `C99_outputs_partial` occur. -/
example : (decodePacketsP ⟨64, true, true⟩ .debug exConn (makeResultStream (exOut 4))).1.isOk = true ∧
    (decodePacketsP ⟨64, true, true⟩ .debug exConn (makeResultStream (exOut 4))).2.2 = [] ∧
    (decodePacketsP ⟨64, true, true⟩ .debug exConn (makeResultStream ((exOut 4).take 50))).2.2 = [27] ∧
    (decodePacketsP ⟨64, false, true⟩ .debug exConn (makeResultStream ((exOut 4).take 50))).1.isPanic = true := by decide +kernel
example : IsVarInt [0x40, 0x07] 7 ∧ [1, 2, 3].length < 7 := ⟨⟨1, by decide⟩, by decide⟩

/-! ### C100 -/

/-- C100 as one would have it: on machines of two widths the same bytes, if they fit into memory, have the same outcome. -/
def C100For (P : Prims) : Prop :=
  ∀ (bp : Profile) (c : Connection), Connection.Reachable P bp c → ∀ (p q : Nat), p ∈ [16, 32, 64] → q ∈ [16, 32, 64] →
    ∀ d : Bytes, d.length + 4 < 2 ^ p → d.length + 4 < 2 ^ q →
      (decodePacketsP ⟨p, true, true⟩ bp c (makeResultStream d)).1 = (decodePacketsP ⟨q, true, true⟩ bp c (makeResultStream d)).1
/-- The claim, for all algorithms that obey the laws. -/
def C100Statement : Prop := ∀ P, PrimLaws P → C100For P

theorem C100_false : ¬ C100Statement := by
  intro h
  have := h toy toy_laws .debug exConn exConn_reachable 32 64 (by decide) (by decide) exWideOut (by decide +kernel) (by decide +kernel)
  have e1 : (decodePacketsP ⟨32, true, true⟩ .debug exConn (makeResultStream exWideOut)).1.isOk = true := by decide +kernel
  have e2 : (decodePacketsP ⟨64, true, true⟩ .debug exConn (makeResultStream exWideOut)).1.isOk = false := by decide +kernel
  rw [this, e2] at e1
  cases e1

/-- On a machine whose pointers have fewer bits than a length, every NEW_TOKEN frame whose length is congruent to the number of bytes that follow is accepted; on
a 64-bit machine it is refused. -/
theorem C100_truncated (w : Env) (L : U64) (lb d : Bytes) (hl : IsVarInt lb L.toNat) (hL : 2 ^ w.ptr ≤ L.toNat) (hd : d.length = L.toNat % 2 ^ w.ptr) :
    deserializeFramesP w (makeResultStream ([0x07] ++ lb ++ d)) = (.ok [.newToken ⟨L, d⟩], [], [])
    ∧ (deserializeFrames (makeResultStream ([0x07] ++ lb ++ d))).1 = .err (.internalError "not enough bytes for var_bytes") := by
  constructor
  · have ht : Pr.of varIntFromStream (makeResultStream ([0x07] ++ lb ++ d)) = (.ok 0x07, makeResultStream (lb ++ d), []) := by
      have := (varInt_reads (v := 0x07) (bs := [0x07]) ⟨0, by decide⟩).of (makeResultStream (lb ++ d))
      rw [← makeResultStream_append, ← List.append_assoc] at this
      exact this
    have h1 : FrameNewToken.fromDatagramP w (makeResultStream (lb ++ d)) = (.ok ⟨L, d⟩, [], []) := by
      unfold FrameNewToken.fromDatagramP
      rw [makeResultStream_append, Pr.bind_silent ((varInt_reads hl).of _), show w.usize L = d.length from hd.symm]
      have := varBytesP_ok w d []
      rw [List.append_nil] at this
      rw [Pr.bind_silent this]
      rfl
    have h2 : deserializeFrameP w (makeResultStream ([0x07] ++ lb ++ d)) = (.ok (.newToken ⟨L, d⟩), [], []) := by
      unfold deserializeFrameP
      rw [Pr.bind_silent ht]
      show (do let x ← FrameNewToken.fromDatagramP _; pure (Frame.newToken x) : Pr Frame) _ = _
      rw [Pr.bind_silent h1]
      rfl
    unfold deserializeFramesP
    rw [show makeResultStream ([0x07] ++ lb ++ d) = .ok 0x07 :: makeResultStream (lb ++ d) from rfl] at h2 ⊢
    rw [List.length_cons, deserializeFramesLoopP, Pr.bind_silent h2]
    · rw [show deserializeFramesLoopP w ((makeResultStream (lb ++ d)).length + 1) = deserializeFramesLoopP w ((makeResultStream (lb ++ d)).length + 1) from rfl,
        Pr.bind_silent (show deserializeFramesLoopP w ((makeResultStream (lb ++ d)).length + 1) [] = (.ok [], [], []) from rfl)]
      rfl
    · simp
  · have hlt : d.length < L.toNat := by
      have := Nat.mod_lt L.toNat (Nat.two_pow_pos w.ptr)
      omega
    have h := C99_token_printed L lb d hl hlt true true
    rcases frames_same true (makeResultStream ([0x07] ++ lb ++ d)) with g | ⟨_, i, s', g, _⟩
    · have := (g true).symm.trans h; injection this
    · have := g.symm.trans h; injection this
example : IsVarInt [0xc0, 0, 0, 1, 0, 0, 0, 2] 0x100000002 ∧ (2 : Nat) ^ 32 ≤ 0x100000002 ∧ [5, 6].length = 0x100000002 % 2 ^ 32 := ⟨⟨3, by decide⟩, by decide, by decide⟩

/-- What a 64-bit machine decodes, every machine with memory for the bytes decodes, with the same result, silently.
Missing for the full statement: what a 64-bit machine refuses, for which it is false (`C100_truncated`). -/
theorem C100_success_partial (P : Prims) (hP : PrimLaws P) (bp : Profile) (c : Connection) (hr : Connection.Reachable P bp c) (w : Env) (hw : w.ptr ≤ 64)
    (s s' : Stream) (hs : s.length + 4 < 2 ^ w.ptr) (ps : List Packet) (h : decodePackets bp c s = (.ok ps, s')) : decodePacketsP w bp c s = (.ok ps, s', []) :=
  (packets_grow hP hw bp (reachable_keysOrNone hP hr) s ps s' hs h).1
/-- The same for frames.
Missing for the full statement: as in `C100_success_partial`. -/
theorem C100_frames_partial (w : Env) (s s' : Stream) (hs : s.length + 4 < 2 ^ w.ptr) (fs : List Frame) (h : deserializeFrames s = (.ok fs, s')) :
    deserializeFramesP w s = (.ok fs, s', []) := (frames_grow w s fs s' hs h).1
example : (decodePackets .debug exConn (makeResultStream (exOut 4))).1.isOk = true ∧ (makeResultStream (exOut 4)).length + 4 < 2 ^ 16 := by decide +kernel

/-- Reading headers, routing and accepting do not depend on the width.
Missing for the full statement: decoding, for which it is false (`C100_truncated`). -/
theorem C100_socket_partial (P : Prims) (w v : Env) (ho : w.stdout = v.stdout) (he : w.stderr = v.stderr) (k : Sock) (net : List NetEvent) (rng : List U64) :
    k.acceptP w P net rng = k.acceptP v P net rng := by
  have hn : ∀ i, nextOrPrint w i = nextOrPrint v i := by intro i; funext s; unfold nextOrPrint; rw [ho]
  have hv : ∀ n i, varBytesLoopP w i n = varBytesLoopP v i n := by
    intro n
    induction n with
    | zero => intro i; rfl
    | succ n ih => intro i; rw [varBytesLoopP, varBytesLoopP, ih, hn]
  have hv : ∀ n, varBytesP w n = varBytesP v n := fun n => hv n 0
  have hw : nextHeaderFromStreamP w = nextHeaderFromStreamP v := by
    unfold nextHeaderFromStreamP LongPacketHeader.fromStreamP
    simp only [hv]
  have h1 : ∀ k e, recvDatagramP w k e = recvDatagramP v k e := by
    intro k e; cases e <;> simp [recvDatagramP, hw, ho]
  have h2 : isNewInitialP w = isNewInitialP v := by funext k d; unfold isNewInitialP; rw [hw, he]
  have h3 : routeDatagramP w = routeDatagramP v := by funext k d; unfold routeDatagramP; rw [hw]
  have h4 : ∀ net k, recvNewInitialDatagramP w k net = recvNewInitialDatagramP v k net := by
    intro net
    induction net with
    | nil => intro k; rfl
    | cons e net ih =>
      intro k
      unfold recvNewInitialDatagramP
      simp only [h1, h2, h3, ih]
  unfold acceptP
  rw [h4]

/-- Non-trivial instance: a datagram that registers a connection (after which `accept` panics, C48), on a machine with 16-bit pointers and on one with 64-bit pointers. -/
example : Sock.acceptP ⟨16, true, true⟩ Spec.toy Sock.bind [.datagram ([0xc0, 0, 0, 0, 1, 8, 1, 2, 3, 4, 5, 6, 7, 8, 0] ++ List.replicate 40 0) 1] [7] =
    Sock.acceptP ⟨64, true, true⟩ Spec.toy Sock.bind [.datagram ([0xc0, 0, 0, 0, 1, 8, 1, 2, 3, 4, 5, 6, 7, 8, 0] ++ List.replicate 40 0) 1] [7] ∧
    (Sock.acceptP ⟨16, true, true⟩ Spec.toy Sock.bind [.datagram ([0xc0, 0, 0, 0, 1, 8, 1, 2, 3, 4, 5, 6, 7, 8, 0] ++ List.replicate 40 0) 1] [7]).1 = .panic "not yet implemented" :=
  ⟨C100_socket_partial Spec.toy ⟨16, true, true⟩ ⟨64, true, true⟩ rfl rfl _ _ _, by decide +kernel⟩

end QuicSea
