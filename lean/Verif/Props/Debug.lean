import Verif.Proofs.DebugTypes
import Verif.Props.Env
import Verif.Props.Codes
/-
C103: the traffic log can be read back.
-/
namespace Spec
open QuicSea

/-- A line of printable characters. -/
def OneLine (t : List Char) : Prop := ∃ cs, t = cs ++ ['\n'] ∧ ∀ c ∈ cs, printable c = true
/-- The lines written to standard output, and those written to standard error. -/
def toStdout : List Line → List Line := List.filter fun | .refused _ => false | _ => true
def toStderr : List Line → List Line := List.filter fun | .refused _ => true | _ => false
/-- A line that some call prints. -/
inductive Printed : Line → Prop where
  | accept {w P k net rng l} : l ∈ (Sock.acceptP w P k net rng).2.2.2.2 → Printed l
  | packets {w bp k d l} : l ∈ (Sock.packetsFromDatagramP w bp k d).2.2 → Printed l
end Spec

namespace QuicSea
open Spec Sock

/-! ## C103 -/

/-- C103: whatever the socket receives, every line it prints is one line of printable ASCII; and what a terminal shows of any number of calls, made one
after the other or at the same time by several threads, determines the lines printed: which headers were received, with all their fields, which packets
and frames were decoded, and which errors there were. -/
def C103Statement : Prop :=
  (∀ l, Printed l → (OneLine l.stdout ∧ l.stderr = []) ∨ (l.stdout = [] ∧ OneLine l.stderr)) ∧
  (∀ ls ls', (∀ l ∈ ls, Printed l) → (∀ l ∈ ls', Printed l) →
    (ls.flatMap Line.stdout = ls'.flatMap Line.stdout → toStdout ls = toStdout ls') ∧
    (ls.flatMap Line.stderr = ls'.flatMap Line.stderr → toStderr ls = toStderr ls'))

section
variable {Q : Error → Prop}
theorem nextOr_plain {msg} (h : Q (.internalError msg)) : Only Q (nextOr msg) := by
  intro s hs
  match s, hs with
  | [], _ => exact ⟨by simp [nextOr], fun e he => by cases he; exact h⟩
  | .ok b :: s', hs => exact ⟨fun e he => hs e (List.mem_cons_of_mem _ he), nofun⟩
  | .error e :: s', hs => exact ⟨fun e he => hs e (List.mem_cons_of_mem _ he), fun e' he => by cases he; exact hs e List.mem_cons_self⟩
theorem readArray_plain {msg} (h : Q (.internalError msg)) (n : Nat) : Only Q (readArray msg n) := by
  induction n with
  | zero => exact Only.pure _
  | succ n ih => exact (nextOr_plain h).bind fun _ => ih.bind fun _ => Only.pure _
theorem uint_plain (size : Nat) {msg} (h : Q (.internalError msg)) : Only Q (uintFromDatagram size msg) := by
  refine (readArray_plain h _).bind fun bs => Only.bind (Only.lift ?_) fun _ => Only.pure _
  exact .ite (.err h) (.ok _)
theorem u160Loop_plain {msg} (h : Q (.internalError msg)) (n : Nat) : ∀ (a : U32) (b : U128), Only Q (u160Loop msg n a b) := by
  induction n with
  | zero => intro a b; exact Only.pure _
  | succ n ih => intro a b; exact (nextOr_plain h).bind fun _ => ih _ _
theorem varBytes_plain (h : Q (.internalError "not enough bytes for var_bytes")) (n : Nat) : Only Q (varBytesFromStream n) := by
  induction n with
  | zero => exact Only.pure _
  | succ n ih => exact (nextOr_plain h).bind fun _ => ih.bind fun _ => Only.pure _
end
theorem u8_plain : Only PlainError u8FromDatagram := by
  refine (readArray_plain (by simp only [PlainError]; decide) _).bind fun bs => Only.bind (Only.lift ?_) fun _ => Only.pure _
  unfold decodeU8; split
  · exact .err (by simp only [PlainError]; decide)
  · exact .ok _
theorem nextHeader_plain : Only PlainError nextHeaderFromStream := by
  refine (nextOr_plain (by simp only [PlainError]; decide)).bind fun hb => .ite (Only.bind ?_ fun _ => .pure _) (Only.bind ?_ fun _ => .pure _)
  · unfold LongPacketHeader.fromStream u32FromDatagram
    refine Only.bind (uint_plain _ (by simp only [PlainError]; decide)) fun v => ?_
    refine Only.bind ?_ fun x => Only.bind (Only.lift (packetType_only _)) fun _ => Only.pure _
    repeat' first
      | refine Only.ite ?_ ?_ | exact Only.pure _ | exact Only.fail (by simp only [PlainError]; decide) | exact varBytes_plain (by simp only [PlainError]; decide) _
      | exact u8_plain | exact u160Loop_plain (by simp only [PlainError]; decide) _ _ _ | refine Only.bind ?_ fun _ => ?_
  · unfold ShortPacketHeader.fromStream fixedLenDcidFromStream u64FromDatagram
    exact Only.bind (Only.bind (uint_plain _ (by simp only [PlainError]; decide)) fun _ => Only.pure _) fun _ => Only.pure _
/-- Errors of header parsing are printable. -/
theorem header_plain (w : Env) (data : Bytes) {e : Error} (h : (nextHeaderFromStreamP w (makeResultStream data)).1 = .err e) : PlainError e := by
  have hp := onlyOut_bytes nextHeader_plain data
  rcases header_env w data with h1 | ⟨e', i, h1, s, s', h2⟩
  · rw [h1] at h; exact hp e h
  · rw [h2] at h
    split at h
    · cases h; exact hp _ h1
    · cases h

/-- A line that can be printed: no panic, and printable errors. -/
def FairLine : Line → Prop
  | .failedAt _ => True
  | .log (.header (.ok _)) => True
  | .log (.header (.err e)) => PlainError e
  | .log (.header (.panic _)) => False
  | .log (.packets _) => True
  | .refused e => PlainError e

theorem fair_failed {l : List Nat} {x : Line} (h : x ∈ l.map Line.failedAt) : FairLine x := by
  obtain ⟨i, -, rfl⟩ := List.mem_map.1 h; trivial
theorem recvDatagram_fair (w : Env) (k : Sock) (e : NetEvent) : ∀ x ∈ (k.recvDatagramP w e).2.2, FairLine x := by
  intro x hx
  cases e with
  | ioError => cases hx
  | datagram raw addr =>
    unfold recvDatagramP at hx
    dsimp only at hx
    split at hx
    · split at hx
      · exact fair_failed hx
      · next hnp =>
        split at hx
        · rcases List.mem_append.1 hx with hx | hx
          · exact fair_failed hx
          · rw [List.mem_singleton] at hx
            subst hx
            rcases hh : (nextHeaderFromStreamP w (makeResultStream (raw.take RECV_BUFFER_LEN))).1 with a | e | p
            · trivial
            · exact header_plain w _ hh
            · exact absurd hh (hnp p)
        · exact fair_failed hx
    · cases hx
theorem isNewInitial_fair (w : Env) (k : Sock) (d : Datagram) : ∀ x ∈ (k.isNewInitialP w d).2, FairLine x := by
  intro x hx
  unfold isNewInitialP at hx
  dsimp only at hx
  split at hx
  · exact fair_failed hx
  · next e he =>
    split at hx
    · rcases List.mem_append.1 hx with hx | hx
      · exact fair_failed hx
      · rw [List.mem_singleton] at hx
        subst hx
        exact header_plain w _ he
    · exact fair_failed hx
  · exact fair_failed hx
theorem routeDatagram_fair (w : Env) (k : Sock) (d : Datagram) : ∀ x ∈ (k.routeDatagramP w d).2.2, FairLine x := by
  intro x hx
  unfold routeDatagramP at hx
  dsimp only at hx
  split at hx
  · split at hx <;> exact fair_failed hx
  · exact fair_failed hx
  · exact fair_failed hx
theorem recvNewInitial_fair (w : Env) (net : List NetEvent) : ∀ (k : Sock), ∀ x ∈ (k.recvNewInitialDatagramP w net).2.2.2, FairLine x := by
  induction net with
  | nil => intro k x hx; cases hx
  | cons e net ih =>
    intro k x hx
    have h1 := recvDatagram_fair w k e
    unfold recvNewInitialDatagramP at hx
    rcases hr : k.recvDatagramP w e with ⟨o, k1, l1⟩
    rw [hr] at h1 hx
    cases o with
    | ioErr => exact h1 x hx
    | panic p => exact h1 x hx
    | blocked => exact h1 x hx
    | ok d =>
      dsimp only at hx
      have h2 := isNewInitial_fair w k1 d
      rcases hi : k1.isNewInitialP w d with ⟨o2, l2⟩
      rw [hi] at h2 hx
      cases o2 with
      | err e => exact (List.mem_append.1 hx).elim (h1 x) (h2 x)
      | panic p => exact (List.mem_append.1 hx).elim (h1 x) (h2 x)
      | ok b =>
        cases b with
        | true => exact (List.mem_append.1 hx).elim (h1 x) (h2 x)
        | false =>
          dsimp only at hx
          have h3 := routeDatagram_fair w k1 d
          rcases hq : k1.routeDatagramP w d with ⟨o3, k3, l3⟩
          rw [hq] at h3 hx
          have h123 : ∀ x ∈ l1 ++ l2 ++ l3, FairLine x := by
            intro x hx
            rcases List.mem_append.1 hx with hx | hx
            · exact (List.mem_append.1 hx).elim (h1 x) (h2 x)
            · exact h3 x hx
          cases o3 with
          | ok u => exact (List.mem_append.1 hx).elim (h123 x) (ih k3 x)
          | err e => exact h123 x hx
          | panic p => exact h123 x hx
theorem accept_fair (w : Env) (P : Prims) (k : Sock) (net : List NetEvent) (rng : List U64) : ∀ x ∈ (k.acceptP w P net rng).2.2.2.2, FairLine x := by
  intro x hx
  refine recvNewInitial_fair w net k x ?_
  unfold acceptP at hx
  dsimp only at hx
  split at hx
  · split at hx
    · split at hx
      · split at hx <;> exact hx
      · exact hx
      · exact hx
      · exact hx
    · exact hx
    · exact hx
  · exact hx
  · exact hx
  · exact hx
theorem packets_fair (w : Env) (bp : Profile) (k : Sock) (d : Datagram) : ∀ x ∈ (k.packetsFromDatagramP w bp d).2.2, FairLine x := by
  intro x hx
  have two : ∀ (a b : List Nat), x ∈ a.map Line.failedAt ++ b.map Line.failedAt → FairLine x := by
    intro a b h; rw [← List.map_append] at h; exact fair_failed h
  unfold packetsFromDatagramP at hx
  dsimp only at hx
  split at hx
  · split at hx
    · exact fair_failed hx
    · split at hx
      · split at hx
        · split at hx
          · rcases List.mem_append.1 hx with hx | hx
            · exact two _ _ hx
            · rw [List.mem_singleton] at hx; subst hx; trivial
          · exact two _ _ hx
        · exact two _ _ hx
      · exact two _ _ hx
  · exact fair_failed hx
  · exact fair_failed hx
theorem printed_fair {l : Line} (h : Printed l) : FairLine l := by
  cases h with
  | accept h => exact accept_fair _ _ _ _ _ _ h
  | packets h => exact packets_fair _ _ _ _ _ h

/-- A line of the traffic log as a value. -/
def LogLine.tree : LogLine → Dbg
  | .header (.ok h) => .tup "Ok" [h.dbg]
  | .header (.err e) => .tup "Err" [e.dbg]
  | .header (.panic _) => .nothing
  | .packets ps => dbgVec Packet.dbg ps
theorem LogLine.text_eq (l : LogLine) : l.text = l.tree.render := by
  rcases l with (a | e | p) | ps <;> rfl
theorem LogLine.tree_wf {l : LogLine} (h : FairLine (.log l)) : l.tree.wf = true := by
  rcases l with (a | e | p) | ps
  · exact tup1_wf (by decide) a.dbg_wf'
  · exact tup1_wf (by decide) (e.dbg_wf' h)
  · exact h.elim
  · exact dbgVec_wf Packet.dbg_wf' ps
theorem LogLine.tree_inj {l l' : LogLine} (h : FairLine (.log l)) (h' : FairLine (.log l')) (e : l.tree = l'.tree) : l = l' := by
  rcases l with (a | x | p) | ps
  · rcases l' with (b | y | p) | qs
    · simp only [LogLine.tree, Dbg.tup.injEq, List.cons.injEq, true_and, and_true, PacketHeader.dbg_inj] at e; rw [e]
    · simp [LogLine.tree] at e
    · exact h'.elim
    · simp [LogLine.tree, dbgVec] at e
  · rcases l' with (b | y | p) | qs
    · simp [LogLine.tree] at e
    · simp only [LogLine.tree, Dbg.tup.injEq, List.cons.injEq, true_and, and_true, Error.dbg_inj] at e; rw [e]
    · exact h'.elim
    · simp [LogLine.tree, dbgVec] at e
  · exact h.elim
  · rcases l' with (b | y | p) | qs
    · simp [LogLine.tree, dbgVec] at e
    · simp [LogLine.tree, dbgVec] at e
    · exact h'.elim
    · simp only [LogLine.tree, dbgVec_inj Packet.dbg_inj] at e; rw [e]
theorem LogLine.text_head {l : LogLine} (h : FairLine (.log l)) : ∃ c t, l.text = c :: t ∧ c ≠ 'f' := by
  rcases l with (a | x | p) | ps
  · exact ⟨'O', _, rfl, by decide⟩
  · exact ⟨'E', _, rfl, by decide⟩
  · exact h.elim
  · exact ⟨'[', _, rfl, by decide⟩

theorem stdout_inj {a b : Line} {r r' : List Char} (ha : FairLine a ∧ a.stdout ≠ []) (hb : FairLine b ∧ b.stdout ≠ []) (h : a.stdout ++ r = b.stdout ++ r') :
    a = b ∧ r = r' := by
  have stop : ∀ t, Stops ('\n' :: t) := fun t c hc => by simp at hc; subst hc; decide
  cases a with
  | refused e => exact absurd rfl ha.2
  | failedAt i =>
    cases b with
    | refused e => exact absurd rfl hb.2
    | failedAt j =>
      simp only [Line.stdout, List.append_assoc, List.cons_append, List.nil_append, List.cons.injEq, true_and] at h
      obtain ⟨h1, h2⟩ := token (decimal_ident i) (decimal_ident j) (stop r) (stop r') h
      exact ⟨by rw [decimal_inj h1], by simpa using h2⟩
    | log l =>
      obtain ⟨c, t, ht, hc⟩ := LogLine.text_head hb.1
      simp only [Line.stdout, ht, List.cons_append, List.cons.injEq] at h
      exact absurd h.1.symm hc
  | log l =>
    cases b with
    | refused e => exact absurd rfl hb.2
    | failedAt j =>
      obtain ⟨c, t, ht, hc⟩ := LogLine.text_head ha.1
      simp only [Line.stdout, ht, List.cons_append, List.cons.injEq] at h
      exact absurd h.1 hc
    | log l' =>
      simp only [Line.stdout, LogLine.text_eq, List.append_assoc, List.cons_append, List.nil_append] at h
      obtain ⟨h1, h2⟩ := Dbg.render_inj _ _ (LogLine.tree_wf ha.1) (LogLine.tree_wf hb.1) (tail_line r) (tail_line r') h
      exact ⟨by rw [LogLine.tree_inj ha.1 hb.1 h1], by simpa using h2⟩
theorem stderr_inj {a b : Line} {r r' : List Char} (ha : FairLine a ∧ a.stderr ≠ []) (hb : FairLine b ∧ b.stderr ≠ []) (h : a.stderr ++ r = b.stderr ++ r') :
    a = b ∧ r = r' := by
  cases a with
  | refused e =>
    cases b with
    | refused e' =>
      simp only [Line.stderr, List.append_assoc, List.cons_append, List.nil_append] at h
      obtain ⟨h1, h2⟩ := Dbg.render_inj _ _ (Error.dbg_wf e ha.1) (Error.dbg_wf e' hb.1) (tail_line r) (tail_line r') h
      exact ⟨by rw [(Error.dbg_inj _ _).1 h1], by simpa using h2⟩
    | _ => exact absurd rfl hb.2
  | _ => exact absurd rfl ha.2

theorem flatMap_inj {α : Type} {Q : α → Prop} {f : α → List Char} (hi : ∀ a b r r', Q a → Q b → f a ++ r = f b ++ r' → a = b ∧ r = r')
    (hn : ∀ a, Q a → f a ≠ []) : ∀ xs ys : List α, (∀ x ∈ xs, Q x) → (∀ x ∈ ys, Q x) → xs.flatMap f = ys.flatMap f → xs = ys := by
  intro xs
  induction xs with
  | nil =>
    intro ys _ hy h
    cases ys with
    | nil => rfl
    | cons y ys => simp at h; exact absurd h.1 (hn y (hy y List.mem_cons_self))
  | cons x xs ih =>
    intro ys hx hy h
    cases ys with
    | nil => simp at h; exact absurd h.1 (hn x (hx x List.mem_cons_self))
    | cons y ys =>
      simp only [List.flatMap_cons] at h
      obtain ⟨h1, h2⟩ := hi x y _ _ (hx x List.mem_cons_self) (hy y List.mem_cons_self) h
      rw [h1, ih ys (fun a ha => hx a (List.mem_cons_of_mem _ ha)) (fun a ha => hy a (List.mem_cons_of_mem _ ha)) h2]
theorem flatMap_toStdout (ls : List Line) : (toStdout ls).flatMap Line.stdout = ls.flatMap Line.stdout := by
  induction ls with
  | nil => rfl
  | cons l ls ih => cases l <;> simp_all [toStdout, Line.stdout]
theorem flatMap_toStderr (ls : List Line) : (toStderr ls).flatMap Line.stderr = ls.flatMap Line.stderr := by
  induction ls with
  | nil => rfl
  | cons l ls ih => cases l <;> simp_all [toStderr, Line.stderr]

theorem C103_log_readable : C103Statement := by
  constructor
  · intro l hl
    have hf := printed_fair hl
    cases l with
    | failedAt i =>
      refine .inl ⟨⟨['f', 'a', 'i', 'l', 'e', 'd', ' ', 'a', 't', ':', ' '] ++ decimal i, rfl, ?_⟩, rfl⟩
      exact PlainText.append (by unfold PlainText; decide) (decimal_plain i)
    | log l =>
      refine .inl ⟨⟨l.text, rfl, ?_⟩, rfl⟩
      rw [LogLine.text_eq]
      exact Dbg.render_plain _ (LogLine.tree_wf hf)
    | refused e => exact .inr ⟨rfl, _, rfl, Dbg.render_plain _ (e.dbg_wf hf)⟩
  · intro ls ls' h h'
    constructor
    · intro e
      refine flatMap_inj (Q := fun a => FairLine a ∧ a.stdout ≠ []) (f := Line.stdout) (fun a b r r' => stdout_inj) (fun a ha => ha.2) _ _ ?_ ?_
        (by rw [flatMap_toStdout, flatMap_toStdout, e]) <;>
      · intro a ha
        obtain ⟨ha, hs⟩ := List.mem_filter.1 ha
        refine ⟨printed_fair (by first | exact h a ha | exact h' a ha), ?_⟩
        cases a <;> simp_all [Line.stdout]
    · intro e
      refine flatMap_inj (Q := fun a => FairLine a ∧ a.stderr ≠ []) (f := Line.stderr) (fun a b r r' => stderr_inj) (fun a ha => ha.2) _ _ ?_ ?_
        (by rw [flatMap_toStderr, flatMap_toStderr, e]) <;>
      · intro a ha
        obtain ⟨ha, hs⟩ := List.mem_filter.1 ha
        refine ⟨printed_fair (by first | exact h a ha | exact h' a ha), ?_⟩
        cases a <;> simp_all [Line.stderr]

/-- Non-trivial instance: three datagrams and what is printed about them. -/
def exPrinted : List Line :=
  (acceptP ⟨64, true, true⟩ toy { Sock.bind with logTraffic := true } [.datagram [0x80, 0, 0, 0, 0, 2, 9, 9, 5, 1, 2, 3] 1] [7]).2.2.2.2
example : ∀ l ∈ exPrinted, Printed l := fun _ h => .accept h
example : String.ofList (exPrinted.flatMap Line.stdout) =
    "failed at: 3\nErr(InternalError(\"not enough bytes for var_bytes\"))\nfailed at: 3\nfailed at: 3\n" := by decide +kernel
example : String.ofList (exPrinted.flatMap Line.stderr) = "InternalError(\"not enough bytes for var_bytes\")\n" := by decide +kernel

end QuicSea
