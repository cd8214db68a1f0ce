import Verif.Xchg.SessionLemmas
import Verif.Xchg.JsonProps

/-!
# C83: a message between two stations arrives whole or not at all
-/

namespace Verif.Xchg

open Verif.Str JsonSpec

/-! ### Specification -/

/-- There is memory for packets. -/
def Enough (e : Env) : Prop := initialSize + 1 ≤ e.limit ∧ e.limit < 2 ^ 64

/-- A packet in the format of C20 with a body of at most `maxBody` bytes. -/
structure Wire where
  version : Nat
  number : Nat
  count : Nat
  type : Nat
  body : List Byte

def Wire.bytes (w : Wire) : List Byte := wireFormat w.version w.number w.count w.type w.body

def Wire.Small (w : Wire) : Prop :=
  w.version < 2 ^ 32 ∧ w.number < 2 ^ 32 ∧ w.count < 2 ^ 32 ∧ w.type < 2 ^ 32 ∧ w.body.length ≤ maxBody

/-- What the application must hear from the stations its message was sent to: nothing from a station that cannot be reached or
whose answer breaks off, and the answer of every other station. -/
inductive Heard : List Line → List Got → Prop
  | nil : Heard [] []
  | unreachable {l : Line} {ls : List Line} {gs : List Got} (hr : l.resolved = true) (h : l.connected = false ∨ l.written = false) (ht : Heard ls gs) :
      Heard (l :: ls) gs
  | broken {l : Line} {ls : List Line} {gs : List Got} (hr : l.resolved = true) (w : Wire) (hw : w.Small) (missing : List Byte) (hm : missing ≠ [])
      (h : arrived l.net ++ missing = w.bytes) (ht : Heard ls gs) : Heard (l :: ls) gs
  | answer {l : Line} {ls : List Line} {g : Got} {gs : List Got} (hr : l.resolved = true) (hc : l.connected = true) (hw : l.written = true)
      (he : l.endpoint = true) (w : Wire) (hs : w.Small) (extra : List Byte) (h : arrived l.net = w.bytes ++ extra)
      (hg : toExternal w.type w.body = some (.ok g)) (ht : Heard ls gs) : Heard (l :: ls) (g :: gs)

/-- A message that both sides can handle: see C49, C82. -/
def Msg.Plain (m : Msg) : Prop := m.Sendable ∧ m.Fits ∧ m.Utf8 ∧ ∀ e, m ≠ .requestRet true e []

/-! ### Lemmas -/

theorem packetBytes_eq (e : Env) (v0 type : Nat) (body : List Byte) (he : Enough e) (hb : body.length + 29 ≤ e.limit) :
    packetBytes e v0 type body = .ok (wireFormat v0 0 1 type body) := by
  unfold packetBytes
  have hn := newPacket_eq e v0 he.1
  rw [hn, ok_bind]
  exact C20_send e v0 _ body hn v0 0 1 type he.1 hb he.2

theorem arrived_data (chunks : List (List Byte)) (tail : List Net) : arrived (chunks.map .data ++ tail) = chunks.flatten ++ arrived tail := by
  induction chunks with
  | nil => rfl
  | cons b t ih => rw [List.map_cons, List.cons_append, arrived, ih, List.flatten_cons, List.append_assoc]

theorem fails_data (chunks : List (List Byte)) (tail : List Net) : fails (chunks.map .data ++ tail) = fails tail := by
  induction chunks with
  | nil => rfl
  | cons b t ih => rw [List.map_cons, List.cons_append, fails, ih]

theorem serve_whole (e : Env) (v0 v1 : Nat) (ep : Bool) (h : Got → Msg) (net : List Net) (he : Enough e) (w : Wire) (hw : w.Small)
    (extra : List Byte) (hn : arrived net = w.bytes ++ extra) :
    ∃ p, p.type = w.type ∧ p.body = .ok w.body ∧ serve e v0 v1 ep h net = respond e v1 ep h p := by
  obtain ⟨p, hp, ht, hb⟩ := receive_extra e v0 w.version w.number w.count w.type w.body extra he.1 hw.1 hw.2.1 hw.2.2.1 hw.2.2.2.1 hw.2.2.2.2
  refine ⟨p, ht, hb, ?_⟩
  rw [serve_receive, hn]
  unfold Wire.bytes
  rw [hp]
  rfl

/-! ### C83 -/

/-- The network may cut the bytes into any pieces. -/
theorem C83_segments (e : Env) (v0 v1 : Nat) (ep : Bool) (h : Got → Msg) (chunks : List (List Byte)) (tail : List Net) :
    serve e v0 v1 ep h (chunks.map .data ++ tail) = serve e v0 v1 ep h (.data chunks.flatten :: tail) := by
  have h1 : arrived (chunks.map .data ++ tail) = arrived (.data chunks.flatten :: tail) := arrived_data _ _
  have h2 : fails (chunks.map .data ++ tail) = fails (.data chunks.flatten :: tail) := fails_data _ _
  rw [serve_receive, serve_receive, h1, h2]

theorem C83_segments_back (e : Env) (v0 : Nat) (l : Line) (chunks : List (List Byte)) (tail : List Net) :
    ask e v0 { l with net := chunks.map .data ++ tail } = ask e v0 { l with net := .data chunks.flatten :: tail } := by
  obtain ⟨r, c, w, n, ep⟩ := l
  cases r with
  | false => rfl
  | true =>
    cases c with
    | false => rfl
    | true =>
      cases w with
      | false => rfl
      | true =>
        rw [ask_answer _ _ _ rfl rfl rfl, ask_answer _ _ _ rfl rfl rfl]
        simp only [arrived_data, arrived]

/-- A packet that arrives, whatever comes behind it, is given to the application once, and the application's answer is what
goes back. -/
theorem C83_whole (e : Env) (v0 v1 : Nat) (h : Got → Msg) (net : List Net) (he : Enough e) (w : Wire) (hw : w.Small) (extra : List Byte)
    (hn : arrived net = w.bytes ++ extra) (g : Got) (hg : toExternal w.type w.body = some (.ok g)) (type : Nat) (reply : List Byte)
    (ha : fromExternal (h g) = .ok (type, reply)) (hr : reply.length + 29 ≤ e.limit) :
    serve e v0 v1 true h net = .ok (.answered g (wireFormat v1 0 1 type reply)) := by
  obtain ⟨p, ht, hb, hs⟩ := serve_whole e v0 v1 true h net he w hw extra hn
  rw [hs]
  unfold respond
  rw [hb, ok_bind, ht, hg]
  simp only [Bool.not_true, Bool.false_eq_true, if_false]
  rw [ha]
  simp only
  rw [packetBytes_eq e v1 type reply he hr]
  rfl

/-- A packet that does not arrive whole does not reach the application: the session waits, and is closed when the connection
fails. -/
theorem C83_broken (e : Env) (v0 v1 : Nat) (ep : Bool) (h : Got → Msg) (net : List Net) (he : Enough e) (w : Wire) (hw : w.Small)
    (missing : List Byte) (hm : missing ≠ []) (hn : arrived net ++ missing = w.bytes) :
    serve e v0 v1 ep h net = .ok (if fails net then .closed else .waiting) := by
  obtain ⟨h1, _, h3⟩ := receive_short e v0 w.version w.number w.count w.type w.body (arrived net) missing he.1 hw.1 hw.2.1 hw.2.2.1
    hw.2.2.2.1 hw.2.2.2.2 hn hm
  rw [serve_receive, h1]
  show Except.ok _ = _
  cases fails net with
  | true => simp
  | false => simp [h3]

/-- Bytes that do not begin with the magic number do not reach the application. -/
theorem C83_magic (e : Env) (v0 v1 : Nat) (ep : Bool) (h : Got → Msg) (net : List Net) (he : Enough e)
    (flag version number count type len : Nat) (hf : flag < 2 ^ 32) (hv : version < 2 ^ 32) (hn : number < 2 ^ 32) (hc : count < 2 ^ 32)
    (ht : type < 2 ^ 32) (hlen : len < 2 ^ 64) (hm : flag ≠ 778682) (rest : List Byte)
    (ha : arrived net = be 4 flag ++ be 4 version ++ be 4 number ++ be 4 count ++ be 4 type ++ be 8 len ++ rest) :
    serve e v0 v1 ep h net = .ok .closed := by
  rw [serve_receive, ha, C20_bad_magic e v0 flag version number count type len rest he.1 hf hv hn hc ht hlen hm]
  show Except.ok _ = _
  congr 1
  apply if_pos
  refine .inr ⟨by simp [be_length, headerLength]; omega, ?_⟩
  unfold badMagic
  have h4 : (be 4 flag ++ be 4 version ++ be 4 number ++ be 4 count ++ be 4 type ++ be 8 len ++ rest).take 4 = be 4 flag := by
    simp only [List.append_assoc]
    rw [List.take_append_of_le_length (by simp [be_length]), List.take_of_length_le (by simp [be_length])]
  rw [h4, swap_be 4 flag (by rw [show (256 : Nat) ^ 4 = 2 ^ 32 by decide]; exact hf)]
  exact decide_eq_true hm

/-- The application hears exactly the answers of the stations that can be reached and answer, in order, whatever the others do. -/
theorem C83_send (e : Env) (v0 v1 : Nat) (m : Msg) (he : Enough e) (type : Nat) (body : List Byte) (hm : fromExternal m = .ok (type, body))
    (hb : body.length + 29 ≤ e.limit) (lines : List Line) (gs : List Got) (hl : Heard lines gs) :
    sendMessage e v0 v1 m lines = .ok (gs, .done, wireFormat v0 0 1 type body) := by
  have key : await e v1 lines = .ok (gs, .done) := by
    induction hl with
    | nil => rfl
    | @unreachable l ls gs hr h _ ih =>
      have : ask e v1 l = .ok .failed := by
        unfold ask
        rw [newPacket_eq e v1 he.1, ok_bind, hr]
        rcases h with h | h
        · rw [h]; rfl
        · rw [h]; cases l.connected <;> rfl
      rw [await, this, ok_bind]
      exact ih
    | @broken l ls gs hr w hw missing hmi h _ ih =>
      have : ask e v1 l = .ok .failed := by
        cases hc : l.connected with
        | false =>
          unfold ask
          rw [newPacket_eq e v1 he.1, ok_bind, hr, hc]
          rfl
        | true =>
          cases hwr : l.written with
          | false =>
            unfold ask
            rw [newPacket_eq e v1 he.1, ok_bind, hr, hc, hwr]
            rfl
          | true =>
            rw [ask_answer e v1 l hr hc hwr, (receive_short e v1 w.version w.number w.count w.type w.body (arrived l.net) missing he.1 hw.1
              hw.2.1 hw.2.2.1 hw.2.2.2.1 hw.2.2.2.2 h hmi).2.1]
            rfl
      rw [await, this, ok_bind]
      exact ih
    | @answer l ls g gs hr hc hw hend w hs extra h hg _ ih =>
      obtain ⟨p, hp, ht, hbp⟩ := receive_extra e v1 w.version w.number w.count w.type w.body extra he.1 hs.1 hs.2.1 hs.2.2.1 hs.2.2.2.1 hs.2.2.2.2
      have hmag : badMagic (wireFormat w.version w.number w.count w.type w.body ++ extra) = false := by
        have : wireFormat w.version w.number w.count w.type w.body ++ extra =
            header 778682 w.version w.number w.count w.type w.body.length ++ (w.body ++ extra) := by simp [wireFormat, header]
        rw [this]
        exact magic_header _ _ _ _ _ _
      have : ask e v1 l = .ok (.packet p) := by
        rw [ask_answer e v1 l hr hc hw, h]
        unfold Wire.bytes
        rw [answer_receive e v1 _ hmag, hp, ok_bind, hend]
        rfl
      rw [await, this, ok_bind]
      simp only
      rw [hbp, ok_bind, ht, hg]
      simp only
      rw [ih]
      rfl
  unfold sendMessage
  rw [hm]
  simp only
  rw [packetBytes_eq e v0 type body he hb, ok_bind, key]
  rfl

/-- Two stations: a message `m` is sent, the peer's application gets `m` and gives an answer, the sender's application gets
this answer; for bodies of at most `maxBody` bytes, however both directions are cut into pieces. -/
theorem C83_exchange_partial (e : Env) (v v0 v1 v2 : Nat) (m : Msg) (h : Got → Msg) (he : Enough e) (hv : v < 2 ^ 32) (hv1 : v1 < 2 ^ 32)
    (hm : m.Plain) (ha : (h (.message m.seen)).Plain)
    (hms : ∀ t b, fromExternal m = .ok (t, b) → b.length < maxBody)
    (has : ∀ t b, fromExternal (h (.message m.seen)) = .ok (t, b) → b.length < maxBody) :
    ∃ wire reply,
      (∀ there extra, arrived there = wire ++ extra → serve e v0 v1 true h there = .ok (.answered (.message m.seen) reply)) ∧
      ∀ back extra, arrived back = reply ++ extra →
        sendMessage e v v2 m [⟨true, true, true, back, true⟩] = .ok ([.message (h (.message m.seen)).seen], .done, wire) := by
  obtain ⟨t, b, hb, hd⟩ := C82_message_partial m hm.1 hm.2.1 hm.2.2.1 hm.2.2.2
  obtain ⟨t', b', hb', hd'⟩ := C82_message_partial _ ha.1 ha.2.1 ha.2.2.1 ha.2.2.2
  have hlb := hms t b hb
  have hlb' := has t' b' hb'
  have htype : ∀ (x : Msg) t b, fromExternal x = .ok (t, b) → t < 2 ^ 32 := by
    intro x t b hx
    unfold fromExternal at hx
    cases ex : encode x with
    | error y => rw [ex] at hx; cases hx
    | ok y =>
      rw [ex] at hx
      cases y with
      | json j =>
        change (j.dump >>= fun t => .ok (0, toBytes t)) = _ at hx
        cases ej : j.dump with
        | error z => rw [ej] at hx; cases hx
        | ok z => rw [ej] at hx; injection hx with hx; rw [← (Prod.mk.inj hx).1]; decide
      | file f => injection hx with hx; rw [← (Prod.mk.inj hx).1]; decide
      | other => cases hx
  have he1 := he.1
  unfold initialSize at he1
  unfold maxBody at hlb hlb'
  have hsm : (Wire.mk v 0 1 t b).Small := ⟨hv, Nat.zero_lt_succ _, (by decide : 1 < 2 ^ 32), htype m t b hb, by unfold maxBody; show b.length ≤ _; omega⟩
  have hsm' : (Wire.mk v1 0 1 t' b').Small := ⟨hv1, Nat.zero_lt_succ _, (by decide : 1 < 2 ^ 32), htype _ t' b' hb', by unfold maxBody; show b'.length ≤ _; omega⟩
  refine ⟨wireFormat v 0 1 t b, wireFormat v1 0 1 t' b', ?_, ?_⟩
  · intro there extra hth
    exact C83_whole e v0 v1 h there he ⟨v, 0, 1, t, b⟩ hsm extra hth _ hd t' b' hb' (by omega)
  · intro back extra hbk
    exact C83_send e v v2 m he t b hb (by omega) _ _ (.answer rfl rfl rfl rfl ⟨v1, 0, 1, t', b'⟩ hsm' extra hbk hd' .nil)

/-! ### Violations -/

/-- **Violation.** An answer that is not a packet is not an error for the sender: the result of `DecodeHeader` is not looked at,
and the application hears a refusal (an answer without a type, `MVR_UNDEFINED`) that nobody sent. -/
theorem C83_answer_magic_violated (e : Env) (v0 : Nat) (back : List Net) (he : Enough e) (hl : 28 ≤ (arrived back).length)
    (hm : swapEndian 4 (ofLE ((arrived back).take 4)) ≠ 778682) :
    await e v0 [⟨true, true, true, back, true⟩] = .ok ([.refused], .done) := by
  obtain ⟨p, hp, ht, hb⟩ := answer_magic e v0 (arrived back) he.1 hl hm
  rw [await, ask_answer e v0 _ rfl rfl rfl, hp, ok_bind]
  simp only [if_true]
  rw [ok_bind]
  simp only
  rw [hb, ok_bind, ht]
  rfl

/-- **Violation.** A service whose application has set no callback ends the program with the first message it gets: the answer
is the undefined message, which `FromExternalMessage` cannot write (an exception in the thread of the service). -/
theorem C83_no_callback_violated (e : Env) (v0 v1 : Nat) (net : List Net) (he : Enough e) (w : Wire) (hw : w.Small) (extra : List Byte)
    (hn : arrived net = w.bytes ++ extra) (g : Got) (hg : toExternal w.type w.body = some (.ok g)) :
    serve e v0 v1 true (fun _ => .undefined) net = .ok (.terminated (some g)) := by
  obtain ⟨p, ht, hb, hs⟩ := serve_whole e v0 v1 true (fun _ => .undefined) net he w hw extra hn
  rw [hs]
  unfold respond
  rw [hb, ok_bind, ht, hg]
  rfl

/-- **Violation.** A peer that sends a message and resets the connection ends the program. -/
theorem C83_reset_violated (e : Env) (v0 v1 : Nat) (h : Got → Msg) (net : List Net) (he : Enough e) (w : Wire) (hw : w.Small) (extra : List Byte)
    (hn : arrived net = w.bytes ++ extra) (g : Got) (hg : toExternal w.type w.body = some (.ok g)) :
    serve e v0 v1 false h net = .ok (.terminated none) := by
  obtain ⟨p, ht, hb, hs⟩ := serve_whole e v0 v1 false h net he w hw extra hn
  rw [hs]
  unfold respond
  rw [hb, ok_bind, ht, hg]
  rfl

/-- **Violation.** So does a peer that sends a message whose type is not a text. -/
theorem C83_type_violated (e : Env) (v0 v1 : Nat) (ep : Bool) (h : Got → Msg) (net : List Net) (he : Enough e) (w : Wire) (hw : w.Small)
    (extra : List Byte) (hn : arrived net = w.bytes ++ extra) (hty : w.type = 0) (l : List (String × Json)) (t : Json)
    (hj : Document (.obj l) (ofBytes w.body)) (hp : Proper (.obj l)) (hl : Lists (.obj l)) (hlk : l.lookup "Type" = some t) (ht : ∀ s, t ≠ .str s) :
    serve e v0 v1 ep h net = .ok (.terminated none) := by
  obtain ⟨p, hpt, hb, hs⟩ := serve_whole e v0 v1 ep h net he w hw extra hn
  rw [hs]
  unfold respond
  rw [hb, ok_bind, hpt, hty, C82_any_layout (.obj l) w.body (.inl hj) hp hl, C49_type_violated l t hlk ht]
  rfl

/-- **Violation.** So does an answer with a text that is not UTF-8. -/
theorem C83_answer_violated (e : Env) (v0 v1 : Nat) (h : Got → Msg) (net : List Net) (he : Enough e) (w : Wire) (hw : w.Small) (extra : List Byte)
    (hn : arrived net = w.bytes ++ extra) (g : Got) (hg : toExternal w.type w.body = some (.ok g)) (hs : (h g).Sendable) (hu : ¬ (h g).Utf8) :
    serve e v0 v1 true h net = .ok (.terminated (some g)) := by
  obtain ⟨p, ht, hb, hse⟩ := serve_whole e v0 v1 true h net he w hw extra hn
  rw [hse]
  unfold respond
  rw [hb, ok_bind, ht, hg]
  simp only [Bool.not_true, Bool.false_eq_true, if_false]
  rw [C82_message_violated _ hs hu]
  rfl

/-- **Violation.** An address that cannot be resolved makes `Send_message` throw, and the answers of the stations behind it are
lost. -/
theorem C83_resolve_violated (e : Env) (v0 v1 : Nat) (m : Msg) (he : Enough e) (type : Nat) (body : List Byte) (hm : fromExternal m = .ok (type, body))
    (hb : body.length + 29 ≤ e.limit) (l : Line) (hr : l.resolved = false) (lines : List Line) :
    sendMessage e v0 v1 m (l :: lines) = .ok ([], .thrown, wireFormat v0 0 1 type body) := by
  have : ask e v1 l = .ok .thrown := by
    unfold ask
    rw [newPacket_eq e v1 he.1, ok_bind, hr]
    rfl
  unfold sendMessage
  rw [hm]
  simp only
  rw [packetBytes_eq e v0 type body he hb, ok_bind, await, this, ok_bind]
  rfl

/-! ### The hypotheses can be met -/

/-- A file of three bytes. -/
def aFile : Wire := ⟨7, 0, 1, 1, [1, 2, 3]⟩

theorem aFile_small : aFile.Small := by unfold Wire.Small maxBody aFile; decide

theorem aFile_got : toExternal aFile.type aFile.body = some (.ok (.message (.requestRet true [] [1, 2, 3]))) := rfl

example : Enough ⟨fun _ => 0, 2 ^ 40⟩ := ⟨by decide, by decide⟩

/-- In two pieces, with a byte too many, before the connection ends. -/
example : arrived [.data (aFile.bytes.take 5), .data (aFile.bytes.drop 5 ++ [9]), .fail, .data [4]] = aFile.bytes ++ [9] := by
  simp only [arrived, List.append_nil]
  rw [← List.append_assoc, List.take_append_drop]

/-- Broken off in the header. -/
example : arrived [.data (aFile.bytes.take 5), .fail] ++ aFile.bytes.drop 5 = aFile.bytes ∧ aFile.bytes.drop 5 ≠ [] ∧
    fails [.data (aFile.bytes.take 5), .fail] = true := by
  simp only [arrived, List.append_nil, List.take_append_drop]
  exact ⟨trivial, by decide, rfl⟩

/-- One station cannot be reached, one breaks off, one answers. -/
example : Heard [⟨true, false, true, [], true⟩, ⟨true, true, true, [.data (aFile.bytes.take 30), .fail], true⟩, ⟨true, true, true, [.data aFile.bytes], true⟩]
    [.message (.requestRet true [] [1, 2, 3])] := by
  refine .unreachable rfl (.inl rfl) (.broken rfl aFile aFile_small (aFile.bytes.drop 30) (by decide) ?_
    (.answer rfl rfl rfl rfl aFile aFile_small [] ?_ aFile_got .nil))
  · simp only [arrived, List.append_nil, List.take_append_drop]
  · rfl

/-- A station leaves, and the other says "bye". -/
example : (Msg.leave (1, 2, 3, 4)).Plain ∧ (Msg.leaveRet true "bye".toList).Plain ∧
    (∀ t b, fromExternal (.leave (1, 2, 3, 4)) = .ok (t, b) → b.length < maxBody) ∧
    (∀ t b, fromExternal (.leaveRet true "bye".toList) = .ok (t, b) → b.length < maxBody) := by
  refine ⟨⟨trivial, trivial, trivial, nofun⟩, ⟨trivial, ⟨by decide, by decide⟩, utf8_ascii _ (by decide), nofun⟩, ?_, ?_⟩
  · have h : ∃ y, fromExternal (.leave (1, 2, 3, 4)) = .ok y ∧ y.2.length < 1000 := ⟨_, rfl, by decide⟩
    obtain ⟨y, hy, hl⟩ := h
    intro t b hb
    rw [hy] at hb
    rw [Except.ok.inj hb] at hl
    unfold maxBody
    exact Nat.lt_trans hl (by decide)
  · have h : ∃ y, fromExternal (.leaveRet true "bye".toList) = .ok y ∧ y.2.length < 1000 := ⟨_, rfl, by decide⟩
    obtain ⟨y, hy, hl⟩ := h
    intro t b hb
    rw [hy] at hb
    rw [Except.ok.inj hb] at hl
    unfold maxBody
    exact Nat.lt_trans hl (by decide)

/-- `{"Type":5}` -/
example : Document (.obj [("Type", .num 5)]) (ofBytes (toBytes "{\"Type\":5}".toList)) ∧ Proper (.obj [("Type", .num 5)]) ∧ Lists (.obj [("Type", .num 5)]) := by
  have d5 : IntText 5 ['5'] := ⟨['5'], ⟨nofun, by simp, by simp⟩, .inl ⟨rfl, rfl⟩⟩
  have h1 := Members.one (k := "Type") (v := .num 5) space_nil (plain_text _ (by decide)) space_nil space_nil (.num d5 (by decide) (by decide)) space_nil
  have hd := document_text (Text.obj h1)
  refine ⟨?_, ?_, ?_⟩
  · rw [show ofBytes (toBytes "{\"Type\":5}".toList) = "{\"Type\":5}".toList by decide]
    exact hd
  · simp only [Proper, ProperMembers]
    exact ⟨(show ["Type"].Nodup by decide), by decide, trivial⟩
  · constructor
    · intro k hk v hv
      simp only [List.mem_cons, List.not_mem_nil, or_false] at hk
      rcases hk with rfl | rfl | rfl <;> cases hv
    · intro v hv
      cases hv

/-- A web server answers. -/
example : 28 ≤ (arrived [.data (toBytes "HTTP/1.1 400 Bad Request\r\n\r\n".toList)]).length ∧
    swapEndian 4 (ofLE ((arrived [.data (toBytes "HTTP/1.1 400 Bad Request\r\n\r\n".toList)]).take 4)) ≠ 778682 := by decide

example : (Msg.leaveRet true [Char.ofNat 0xFC]).Sendable ∧ ¬ (Msg.leaveRet true [Char.ofNat 0xFC]).Utf8 := ⟨trivial, not_utf8_latin1⟩

end Verif.Xchg
